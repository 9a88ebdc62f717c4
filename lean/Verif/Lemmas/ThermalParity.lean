import Verif.Lemmas.ThermalBranch

/-! # Parity in the frequency and the momentum, and reality, of the thermal integrands

Generated by a script: one lemma per function. -/

set_option linter.unusedSimpArgs false
set_option linter.unusedTactic false
set_option linter.unreachableTactic false
set_option linter.unusedVariables false

namespace Qcd
open thermal consts

variable {T T1 T2 T3 T4 : Type} [Num T] [Num T1] [Num T2] [Num T3] [Num T4]

theorem even_om_thermal_i_m_m_i (q : ℝ) (om : T1) (p : ℝ) (m1 : T2) (m2 : T3) (beta : ℝ) :
    thermal.i_m_m_i q (-om) p m1 m2 beta = thermal.i_m_m_i q om p m1 m2 beta := by
  rw [toC_thermal_i_m_m_i q (-om) p m1 m2 beta, toC_thermal_i_m_m_i q om p m1 m2 beta]
  simp only [thermal.i_m_m_i, r_0_eq, r_0_same_mass_eq, tlog_eq, tlog_same_mass_eq, tlog_zero_mass_eq, tlog_l_eq, tlog_l_same_mass_eq, tlog_l_zero_mass_eq, tlog_t_eq, tlog_t_same_mass_eq, tlog_t_zero_mass_eq, zm_r_0_eq, zm_r_0_same_mass_eq, z0_r_0_C, z0_r_0_eq, z0_tlog_eq, z0_tlog_t_eq, toC_complex, toC_real, ofR_complex, ofR_real, toC_ofR, toC_zero, toC_energy, toC_bose, map_mul, map_add, map_neg, map_sub, map_inv₀, map_div₀, neg_neg, neg_mul_neg, inv_neg]
  try ring_nf

theorem even_om_thermal_i_m_m_i_same_mass (q : ℝ) (om : T1) (p : T2) (m : T3) (beta : ℝ) :
    thermal.i_m_m_i_same_mass q (-om) p m beta = thermal.i_m_m_i_same_mass q om p m beta := by
  rw [toC_thermal_i_m_m_i_same_mass q (-om) p m beta, toC_thermal_i_m_m_i_same_mass q om p m beta]
  simp only [thermal.i_m_m_i_same_mass, r_0_eq, r_0_same_mass_eq, tlog_eq, tlog_same_mass_eq, tlog_zero_mass_eq, tlog_l_eq, tlog_l_same_mass_eq, tlog_l_zero_mass_eq, tlog_t_eq, tlog_t_same_mass_eq, tlog_t_zero_mass_eq, zm_r_0_eq, zm_r_0_same_mass_eq, z0_r_0_C, z0_r_0_eq, z0_tlog_eq, z0_tlog_t_eq, toC_complex, toC_real, ofR_complex, ofR_real, toC_ofR, toC_zero, toC_energy, toC_bose, map_mul, map_add, map_neg, map_sub, map_inv₀, map_div₀, neg_neg, neg_mul_neg, inv_neg]
  try ring_nf

theorem even_om_thermal_i_m_0_i (q : ℝ) (om : T1) (p : T2) (m : T3) (beta : ℝ) :
    thermal.i_m_0_i q (-om) p m beta = thermal.i_m_0_i q om p m beta := by
  rw [toC_thermal_i_m_0_i q (-om) p m beta, toC_thermal_i_m_0_i q om p m beta]
  simp only [thermal.i_m_0_i, r_0_eq, r_0_same_mass_eq, tlog_eq, tlog_same_mass_eq, tlog_zero_mass_eq, tlog_l_eq, tlog_l_same_mass_eq, tlog_l_zero_mass_eq, tlog_t_eq, tlog_t_same_mass_eq, tlog_t_zero_mass_eq, zm_r_0_eq, zm_r_0_same_mass_eq, z0_r_0_C, z0_r_0_eq, z0_tlog_eq, z0_tlog_t_eq, toC_complex, toC_real, ofR_complex, ofR_real, toC_ofR, toC_zero, toC_energy, toC_bose, map_mul, map_add, map_neg, map_sub, map_inv₀, map_div₀, neg_neg, neg_mul_neg, inv_neg]
  try ring_nf

theorem even_om_thermal_i_0_0_i (q : ℝ) (om : T) (p : ℝ) (beta : ℝ) :
    thermal.i_0_0_i q (-om) p beta = thermal.i_0_0_i q om p beta := by
  rw [toC_thermal_i_0_0_i q (-om) p beta, toC_thermal_i_0_0_i q om p beta]
  simp only [thermal.i_0_0_i, r_0_eq, r_0_same_mass_eq, tlog_eq, tlog_same_mass_eq, tlog_zero_mass_eq, tlog_l_eq, tlog_l_same_mass_eq, tlog_l_zero_mass_eq, tlog_t_eq, tlog_t_same_mass_eq, tlog_t_zero_mass_eq, zm_r_0_eq, zm_r_0_same_mass_eq, z0_r_0_C, z0_r_0_eq, z0_tlog_eq, z0_tlog_t_eq, toC_complex, toC_real, ofR_complex, ofR_real, toC_ofR, toC_zero, toC_energy, toC_bose, map_mul, map_add, map_neg, map_sub, map_inv₀, map_div₀, neg_neg, neg_mul_neg, inv_neg]
  try ring_nf

theorem even_om_thermal_i_m_m_l_i (q : ℝ) (om : T1) (p : ℝ) (m1 : T2) (m2 : T3) (beta : ℝ) :
    thermal.i_m_m_l_i q (-om) p m1 m2 beta = thermal.i_m_m_l_i q om p m1 m2 beta := by
  rw [toC_thermal_i_m_m_l_i q (-om) p m1 m2 beta, toC_thermal_i_m_m_l_i q om p m1 m2 beta]
  simp only [thermal.i_m_m_l_i, r_0_eq, r_0_same_mass_eq, tlog_eq, tlog_same_mass_eq, tlog_zero_mass_eq, tlog_l_eq, tlog_l_same_mass_eq, tlog_l_zero_mass_eq, tlog_t_eq, tlog_t_same_mass_eq, tlog_t_zero_mass_eq, zm_r_0_eq, zm_r_0_same_mass_eq, z0_r_0_C, z0_r_0_eq, z0_tlog_eq, z0_tlog_t_eq, toC_complex, toC_real, ofR_complex, ofR_real, toC_ofR, toC_zero, toC_energy, toC_bose, map_mul, map_add, map_neg, map_sub, map_inv₀, map_div₀, neg_neg, neg_mul_neg, inv_neg]
  try ring_nf

theorem even_om_thermal_i_m_m_l_i_same_mass (q : ℝ) (om : T1) (p : T2) (m : T3) (beta : ℝ) :
    thermal.i_m_m_l_i_same_mass q (-om) p m beta = thermal.i_m_m_l_i_same_mass q om p m beta := by
  rw [toC_thermal_i_m_m_l_i_same_mass q (-om) p m beta, toC_thermal_i_m_m_l_i_same_mass q om p m beta]
  simp only [thermal.i_m_m_l_i_same_mass, r_0_eq, r_0_same_mass_eq, tlog_eq, tlog_same_mass_eq, tlog_zero_mass_eq, tlog_l_eq, tlog_l_same_mass_eq, tlog_l_zero_mass_eq, tlog_t_eq, tlog_t_same_mass_eq, tlog_t_zero_mass_eq, zm_r_0_eq, zm_r_0_same_mass_eq, z0_r_0_C, z0_r_0_eq, z0_tlog_eq, z0_tlog_t_eq, toC_complex, toC_real, ofR_complex, ofR_real, toC_ofR, toC_zero, toC_energy, toC_bose, map_mul, map_add, map_neg, map_sub, map_inv₀, map_div₀, neg_neg, neg_mul_neg, inv_neg]
  try ring_nf

theorem even_om_thermal_i_m_0_l_i (q : ℝ) (om : T1) (p : T2) (m : T3) (beta : ℝ) :
    thermal.i_m_0_l_i q (-om) p m beta = thermal.i_m_0_l_i q om p m beta := by
  rw [toC_thermal_i_m_0_l_i q (-om) p m beta, toC_thermal_i_m_0_l_i q om p m beta]
  simp only [thermal.i_m_0_l_i, r_0_eq, r_0_same_mass_eq, tlog_eq, tlog_same_mass_eq, tlog_zero_mass_eq, tlog_l_eq, tlog_l_same_mass_eq, tlog_l_zero_mass_eq, tlog_t_eq, tlog_t_same_mass_eq, tlog_t_zero_mass_eq, zm_r_0_eq, zm_r_0_same_mass_eq, z0_r_0_C, z0_r_0_eq, z0_tlog_eq, z0_tlog_t_eq, toC_complex, toC_real, ofR_complex, ofR_real, toC_ofR, toC_zero, toC_energy, toC_bose, map_mul, map_add, map_neg, map_sub, map_inv₀, map_div₀, neg_neg, neg_mul_neg, inv_neg]
  try ring_nf

theorem even_om_thermal_i_0_0_l_i (q : ℝ) (om : T1) (p : T2) (beta : ℝ) :
    thermal.i_0_0_l_i q (-om) p beta = thermal.i_0_0_l_i q om p beta := by
  rw [toC_thermal_i_0_0_l_i q (-om) p beta, toC_thermal_i_0_0_l_i q om p beta]
  simp only [thermal.i_0_0_l_i, r_0_eq, r_0_same_mass_eq, tlog_eq, tlog_same_mass_eq, tlog_zero_mass_eq, tlog_l_eq, tlog_l_same_mass_eq, tlog_l_zero_mass_eq, tlog_t_eq, tlog_t_same_mass_eq, tlog_t_zero_mass_eq, zm_r_0_eq, zm_r_0_same_mass_eq, z0_r_0_C, z0_r_0_eq, z0_tlog_eq, z0_tlog_t_eq, toC_complex, toC_real, ofR_complex, ofR_real, toC_ofR, toC_zero, toC_energy, toC_bose, map_mul, map_add, map_neg, map_sub, map_inv₀, map_div₀, neg_neg, neg_mul_neg, inv_neg]
  try ring_nf

theorem even_om_thermal_i_m_m_t_i (q : ℝ) (om : T1) (p : ℝ) (m1 : T2) (m2 : T3) (beta : ℝ) :
    thermal.i_m_m_t_i q (-om) p m1 m2 beta = thermal.i_m_m_t_i q om p m1 m2 beta := by
  rw [toC_thermal_i_m_m_t_i q (-om) p m1 m2 beta, toC_thermal_i_m_m_t_i q om p m1 m2 beta]
  simp only [thermal.i_m_m_t_i, r_0_eq, r_0_same_mass_eq, tlog_eq, tlog_same_mass_eq, tlog_zero_mass_eq, tlog_l_eq, tlog_l_same_mass_eq, tlog_l_zero_mass_eq, tlog_t_eq, tlog_t_same_mass_eq, tlog_t_zero_mass_eq, zm_r_0_eq, zm_r_0_same_mass_eq, z0_r_0_C, z0_r_0_eq, z0_tlog_eq, z0_tlog_t_eq, toC_complex, toC_real, ofR_complex, ofR_real, toC_ofR, toC_zero, toC_energy, toC_bose, map_mul, map_add, map_neg, map_sub, map_inv₀, map_div₀, neg_neg, neg_mul_neg, inv_neg]
  try ring_nf

theorem even_om_thermal_i_m_m_t_i_same_mass (q : ℝ) (om : T1) (p : ℝ) (m : T2) (beta : ℝ) :
    thermal.i_m_m_t_i_same_mass q (-om) p m beta = thermal.i_m_m_t_i_same_mass q om p m beta := by
  rw [toC_thermal_i_m_m_t_i_same_mass q (-om) p m beta, toC_thermal_i_m_m_t_i_same_mass q om p m beta]
  simp only [thermal.i_m_m_t_i_same_mass, r_0_eq, r_0_same_mass_eq, tlog_eq, tlog_same_mass_eq, tlog_zero_mass_eq, tlog_l_eq, tlog_l_same_mass_eq, tlog_l_zero_mass_eq, tlog_t_eq, tlog_t_same_mass_eq, tlog_t_zero_mass_eq, zm_r_0_eq, zm_r_0_same_mass_eq, z0_r_0_C, z0_r_0_eq, z0_tlog_eq, z0_tlog_t_eq, toC_complex, toC_real, ofR_complex, ofR_real, toC_ofR, toC_zero, toC_energy, toC_bose, map_mul, map_add, map_neg, map_sub, map_inv₀, map_div₀, neg_neg, neg_mul_neg, inv_neg]
  try ring_nf

theorem even_om_thermal_i_m_0_t_i (q : ℝ) (om : T1) (p : ℝ) (m : T2) (beta : ℝ) :
    thermal.i_m_0_t_i q (-om) p m beta = thermal.i_m_0_t_i q om p m beta := by
  rw [toC_thermal_i_m_0_t_i q (-om) p m beta, toC_thermal_i_m_0_t_i q om p m beta]
  simp only [thermal.i_m_0_t_i, r_0_eq, r_0_same_mass_eq, tlog_eq, tlog_same_mass_eq, tlog_zero_mass_eq, tlog_l_eq, tlog_l_same_mass_eq, tlog_l_zero_mass_eq, tlog_t_eq, tlog_t_same_mass_eq, tlog_t_zero_mass_eq, zm_r_0_eq, zm_r_0_same_mass_eq, z0_r_0_C, z0_r_0_eq, z0_tlog_eq, z0_tlog_t_eq, toC_complex, toC_real, ofR_complex, ofR_real, toC_ofR, toC_zero, toC_energy, toC_bose, map_mul, map_add, map_neg, map_sub, map_inv₀, map_div₀, neg_neg, neg_mul_neg, inv_neg]
  try ring_nf

theorem even_om_thermal_i_0_0_t_i (q : ℝ) (om : T) (p : ℝ) (beta : ℝ) :
    thermal.i_0_0_t_i q (-om) p beta = thermal.i_0_0_t_i q om p beta := by
  rw [toC_thermal_i_0_0_t_i q (-om) p beta, toC_thermal_i_0_0_t_i q om p beta]
  simp only [thermal.i_0_0_t_i, r_0_eq, r_0_same_mass_eq, tlog_eq, tlog_same_mass_eq, tlog_zero_mass_eq, tlog_l_eq, tlog_l_same_mass_eq, tlog_l_zero_mass_eq, tlog_t_eq, tlog_t_same_mass_eq, tlog_t_zero_mass_eq, zm_r_0_eq, zm_r_0_same_mass_eq, z0_r_0_C, z0_r_0_eq, z0_tlog_eq, z0_tlog_t_eq, toC_complex, toC_real, ofR_complex, ofR_real, toC_ofR, toC_zero, toC_energy, toC_bose, map_mul, map_add, map_neg, map_sub, map_inv₀, map_div₀, neg_neg, neg_mul_neg, inv_neg]
  try ring_nf

theorem even_om_thermal_d_i_m_m_i (q : ℝ) (om : T1) (p : ℝ) (m1 : T2) (m2 : T3) (beta : ℝ) :
    thermal.d_i_m_m_i q (-om) p m1 m2 beta = thermal.d_i_m_m_i q om p m1 m2 beta := by
  rw [toC_thermal_d_i_m_m_i q (-om) p m1 m2 beta, toC_thermal_d_i_m_m_i q om p m1 m2 beta]
  simp only [thermal.d_i_m_m_i, r_0_eq, r_0_same_mass_eq, tlog_eq, tlog_same_mass_eq, tlog_zero_mass_eq, tlog_l_eq, tlog_l_same_mass_eq, tlog_l_zero_mass_eq, tlog_t_eq, tlog_t_same_mass_eq, tlog_t_zero_mass_eq, zm_r_0_eq, zm_r_0_same_mass_eq, z0_r_0_C, z0_r_0_eq, z0_tlog_eq, z0_tlog_t_eq, toC_complex, toC_real, ofR_complex, ofR_real, toC_ofR, toC_zero, toC_energy, toC_bose, map_mul, map_add, map_neg, map_sub, map_inv₀, map_div₀, neg_neg, neg_mul_neg, inv_neg]
  try ring_nf

theorem even_om_thermal_d_i_m_m_i_same_mass (q : ℝ) (om : T1) (p : T2) (m : T3) (beta : ℝ) :
    thermal.d_i_m_m_i_same_mass q (-om) p m beta = thermal.d_i_m_m_i_same_mass q om p m beta := by
  rw [toC_thermal_d_i_m_m_i_same_mass q (-om) p m beta, toC_thermal_d_i_m_m_i_same_mass q om p m beta]
  simp only [thermal.d_i_m_m_i_same_mass, r_0_eq, r_0_same_mass_eq, tlog_eq, tlog_same_mass_eq, tlog_zero_mass_eq, tlog_l_eq, tlog_l_same_mass_eq, tlog_l_zero_mass_eq, tlog_t_eq, tlog_t_same_mass_eq, tlog_t_zero_mass_eq, zm_r_0_eq, zm_r_0_same_mass_eq, z0_r_0_C, z0_r_0_eq, z0_tlog_eq, z0_tlog_t_eq, toC_complex, toC_real, ofR_complex, ofR_real, toC_ofR, toC_zero, toC_energy, toC_bose, map_mul, map_add, map_neg, map_sub, map_inv₀, map_div₀, neg_neg, neg_mul_neg, inv_neg]
  try ring_nf

theorem even_om_thermal_d_i_m_0_i (q : ℝ) (om : T1) (p : T2) (m : T3) (beta : ℝ) :
    thermal.d_i_m_0_i q (-om) p m beta = thermal.d_i_m_0_i q om p m beta := by
  rw [toC_thermal_d_i_m_0_i q (-om) p m beta, toC_thermal_d_i_m_0_i q om p m beta]
  simp only [thermal.d_i_m_0_i, r_0_eq, r_0_same_mass_eq, tlog_eq, tlog_same_mass_eq, tlog_zero_mass_eq, tlog_l_eq, tlog_l_same_mass_eq, tlog_l_zero_mass_eq, tlog_t_eq, tlog_t_same_mass_eq, tlog_t_zero_mass_eq, zm_r_0_eq, zm_r_0_same_mass_eq, z0_r_0_C, z0_r_0_eq, z0_tlog_eq, z0_tlog_t_eq, toC_complex, toC_real, ofR_complex, ofR_real, toC_ofR, toC_zero, toC_energy, toC_bose, map_mul, map_add, map_neg, map_sub, map_inv₀, map_div₀, neg_neg, neg_mul_neg, inv_neg]
  try ring_nf

theorem even_om_thermal_d_i_0_0_i (q : ℝ) (om : T) (p : ℝ) (beta : ℝ) :
    thermal.d_i_0_0_i q (-om) p beta = thermal.d_i_0_0_i q om p beta := by
  rw [toC_thermal_d_i_0_0_i q (-om) p beta, toC_thermal_d_i_0_0_i q om p beta]
  simp only [thermal.d_i_0_0_i, r_0_eq, r_0_same_mass_eq, tlog_eq, tlog_same_mass_eq, tlog_zero_mass_eq, tlog_l_eq, tlog_l_same_mass_eq, tlog_l_zero_mass_eq, tlog_t_eq, tlog_t_same_mass_eq, tlog_t_zero_mass_eq, zm_r_0_eq, zm_r_0_same_mass_eq, z0_r_0_C, z0_r_0_eq, z0_tlog_eq, z0_tlog_t_eq, toC_complex, toC_real, ofR_complex, ofR_real, toC_ofR, toC_zero, toC_energy, toC_bose, map_mul, map_add, map_neg, map_sub, map_inv₀, map_div₀, neg_neg, neg_mul_neg, inv_neg]
  try ring_nf

theorem even_om_thermal_d_i_m_m_l_i (q : ℝ) (om : T1) (p : ℝ) (m1 : T2) (m2 : T3) (beta : ℝ) :
    thermal.d_i_m_m_l_i q (-om) p m1 m2 beta = thermal.d_i_m_m_l_i q om p m1 m2 beta := by
  rw [toC_thermal_d_i_m_m_l_i q (-om) p m1 m2 beta, toC_thermal_d_i_m_m_l_i q om p m1 m2 beta]
  simp only [thermal.d_i_m_m_l_i, r_0_eq, r_0_same_mass_eq, tlog_eq, tlog_same_mass_eq, tlog_zero_mass_eq, tlog_l_eq, tlog_l_same_mass_eq, tlog_l_zero_mass_eq, tlog_t_eq, tlog_t_same_mass_eq, tlog_t_zero_mass_eq, zm_r_0_eq, zm_r_0_same_mass_eq, z0_r_0_C, z0_r_0_eq, z0_tlog_eq, z0_tlog_t_eq, toC_complex, toC_real, ofR_complex, ofR_real, toC_ofR, toC_zero, toC_energy, toC_bose, map_mul, map_add, map_neg, map_sub, map_inv₀, map_div₀, neg_neg, neg_mul_neg, inv_neg]
  try ring_nf

theorem even_om_thermal_d_i_m_m_l_i_same_mass (q : ℝ) (om : T1) (p : T2) (m : T3) (beta : ℝ) :
    thermal.d_i_m_m_l_i_same_mass q (-om) p m beta = thermal.d_i_m_m_l_i_same_mass q om p m beta := by
  rw [toC_thermal_d_i_m_m_l_i_same_mass q (-om) p m beta, toC_thermal_d_i_m_m_l_i_same_mass q om p m beta]
  simp only [thermal.d_i_m_m_l_i_same_mass, r_0_eq, r_0_same_mass_eq, tlog_eq, tlog_same_mass_eq, tlog_zero_mass_eq, tlog_l_eq, tlog_l_same_mass_eq, tlog_l_zero_mass_eq, tlog_t_eq, tlog_t_same_mass_eq, tlog_t_zero_mass_eq, zm_r_0_eq, zm_r_0_same_mass_eq, z0_r_0_C, z0_r_0_eq, z0_tlog_eq, z0_tlog_t_eq, toC_complex, toC_real, ofR_complex, ofR_real, toC_ofR, toC_zero, toC_energy, toC_bose, map_mul, map_add, map_neg, map_sub, map_inv₀, map_div₀, neg_neg, neg_mul_neg, inv_neg]
  try ring_nf

theorem even_om_thermal_d_i_m_0_l_i (q : ℝ) (om : T1) (p : T2) (m : T3) (beta : ℝ) :
    thermal.d_i_m_0_l_i q (-om) p m beta = thermal.d_i_m_0_l_i q om p m beta := by
  rw [toC_thermal_d_i_m_0_l_i q (-om) p m beta, toC_thermal_d_i_m_0_l_i q om p m beta]
  simp only [thermal.d_i_m_0_l_i, r_0_eq, r_0_same_mass_eq, tlog_eq, tlog_same_mass_eq, tlog_zero_mass_eq, tlog_l_eq, tlog_l_same_mass_eq, tlog_l_zero_mass_eq, tlog_t_eq, tlog_t_same_mass_eq, tlog_t_zero_mass_eq, zm_r_0_eq, zm_r_0_same_mass_eq, z0_r_0_C, z0_r_0_eq, z0_tlog_eq, z0_tlog_t_eq, toC_complex, toC_real, ofR_complex, ofR_real, toC_ofR, toC_zero, toC_energy, toC_bose, map_mul, map_add, map_neg, map_sub, map_inv₀, map_div₀, neg_neg, neg_mul_neg, inv_neg]
  try ring_nf

theorem even_om_thermal_d_i_0_0_l_i (q : ℝ) (om : T) (p : ℝ) (beta : ℝ) :
    thermal.d_i_0_0_l_i q (-om) p beta = thermal.d_i_0_0_l_i q om p beta := by
  rw [toC_thermal_d_i_0_0_l_i q (-om) p beta, toC_thermal_d_i_0_0_l_i q om p beta]
  simp only [thermal.d_i_0_0_l_i, r_0_eq, r_0_same_mass_eq, tlog_eq, tlog_same_mass_eq, tlog_zero_mass_eq, tlog_l_eq, tlog_l_same_mass_eq, tlog_l_zero_mass_eq, tlog_t_eq, tlog_t_same_mass_eq, tlog_t_zero_mass_eq, zm_r_0_eq, zm_r_0_same_mass_eq, z0_r_0_C, z0_r_0_eq, z0_tlog_eq, z0_tlog_t_eq, toC_complex, toC_real, ofR_complex, ofR_real, toC_ofR, toC_zero, toC_energy, toC_bose, map_mul, map_add, map_neg, map_sub, map_inv₀, map_div₀, neg_neg, neg_mul_neg, inv_neg]
  try ring_nf

theorem even_om_thermal_d_i_m_m_t_i (q : ℝ) (om : T1) (p : ℝ) (m1 : T2) (m2 : T3) (beta : ℝ) :
    thermal.d_i_m_m_t_i q (-om) p m1 m2 beta = thermal.d_i_m_m_t_i q om p m1 m2 beta := by
  rw [toC_thermal_d_i_m_m_t_i q (-om) p m1 m2 beta, toC_thermal_d_i_m_m_t_i q om p m1 m2 beta]
  simp only [thermal.d_i_m_m_t_i, r_0_eq, r_0_same_mass_eq, tlog_eq, tlog_same_mass_eq, tlog_zero_mass_eq, tlog_l_eq, tlog_l_same_mass_eq, tlog_l_zero_mass_eq, tlog_t_eq, tlog_t_same_mass_eq, tlog_t_zero_mass_eq, zm_r_0_eq, zm_r_0_same_mass_eq, z0_r_0_C, z0_r_0_eq, z0_tlog_eq, z0_tlog_t_eq, toC_complex, toC_real, ofR_complex, ofR_real, toC_ofR, toC_zero, toC_energy, toC_bose, map_mul, map_add, map_neg, map_sub, map_inv₀, map_div₀, neg_neg, neg_mul_neg, inv_neg]
  try ring_nf

theorem even_om_thermal_d_i_m_m_t_i_same_mass (q : ℝ) (om : T1) (p : ℝ) (m : T2) (beta : ℝ) :
    thermal.d_i_m_m_t_i_same_mass q (-om) p m beta = thermal.d_i_m_m_t_i_same_mass q om p m beta := by
  rw [toC_thermal_d_i_m_m_t_i_same_mass q (-om) p m beta, toC_thermal_d_i_m_m_t_i_same_mass q om p m beta]
  simp only [thermal.d_i_m_m_t_i_same_mass, r_0_eq, r_0_same_mass_eq, tlog_eq, tlog_same_mass_eq, tlog_zero_mass_eq, tlog_l_eq, tlog_l_same_mass_eq, tlog_l_zero_mass_eq, tlog_t_eq, tlog_t_same_mass_eq, tlog_t_zero_mass_eq, zm_r_0_eq, zm_r_0_same_mass_eq, z0_r_0_C, z0_r_0_eq, z0_tlog_eq, z0_tlog_t_eq, toC_complex, toC_real, ofR_complex, ofR_real, toC_ofR, toC_zero, toC_energy, toC_bose, map_mul, map_add, map_neg, map_sub, map_inv₀, map_div₀, neg_neg, neg_mul_neg, inv_neg]
  try ring_nf

theorem even_om_thermal_d_i_m_0_t_i (q : ℝ) (om : T1) (p : ℝ) (m : T2) (beta : ℝ) :
    thermal.d_i_m_0_t_i q (-om) p m beta = thermal.d_i_m_0_t_i q om p m beta := by
  rw [toC_thermal_d_i_m_0_t_i q (-om) p m beta, toC_thermal_d_i_m_0_t_i q om p m beta]
  simp only [thermal.d_i_m_0_t_i, r_0_eq, r_0_same_mass_eq, tlog_eq, tlog_same_mass_eq, tlog_zero_mass_eq, tlog_l_eq, tlog_l_same_mass_eq, tlog_l_zero_mass_eq, tlog_t_eq, tlog_t_same_mass_eq, tlog_t_zero_mass_eq, zm_r_0_eq, zm_r_0_same_mass_eq, z0_r_0_C, z0_r_0_eq, z0_tlog_eq, z0_tlog_t_eq, toC_complex, toC_real, ofR_complex, ofR_real, toC_ofR, toC_zero, toC_energy, toC_bose, map_mul, map_add, map_neg, map_sub, map_inv₀, map_div₀, neg_neg, neg_mul_neg, inv_neg]
  try ring_nf

theorem even_om_thermal_d_i_0_0_t_i (q : ℝ) (om : T) (p : ℝ) (beta : ℝ) :
    thermal.d_i_0_0_t_i q (-om) p beta = thermal.d_i_0_0_t_i q om p beta := by
  rw [toC_thermal_d_i_0_0_t_i q (-om) p beta, toC_thermal_d_i_0_0_t_i q om p beta]
  simp only [thermal.d_i_0_0_t_i, r_0_eq, r_0_same_mass_eq, tlog_eq, tlog_same_mass_eq, tlog_zero_mass_eq, tlog_l_eq, tlog_l_same_mass_eq, tlog_l_zero_mass_eq, tlog_t_eq, tlog_t_same_mass_eq, tlog_t_zero_mass_eq, zm_r_0_eq, zm_r_0_same_mass_eq, z0_r_0_C, z0_r_0_eq, z0_tlog_eq, z0_tlog_t_eq, toC_complex, toC_real, ofR_complex, ofR_real, toC_ofR, toC_zero, toC_energy, toC_bose, map_mul, map_add, map_neg, map_sub, map_inv₀, map_div₀, neg_neg, neg_mul_neg, inv_neg]
  try ring_nf

theorem even_om_thermal_zero_momentum_i_m_m_i (q : ℝ) (om : T1) (m1 : T2) (m2 : T3) (beta : ℝ) :
    thermal.zero_momentum.i_m_m_i q (-om) m1 m2 beta = thermal.zero_momentum.i_m_m_i q om m1 m2 beta := by
  rw [toC_thermal_zero_momentum_i_m_m_i q (-om) m1 m2 beta, toC_thermal_zero_momentum_i_m_m_i q om m1 m2 beta]
  simp only [thermal.zero_momentum.i_m_m_i, r_0_eq, r_0_same_mass_eq, tlog_eq, tlog_same_mass_eq, tlog_zero_mass_eq, tlog_l_eq, tlog_l_same_mass_eq, tlog_l_zero_mass_eq, tlog_t_eq, tlog_t_same_mass_eq, tlog_t_zero_mass_eq, zm_r_0_eq, zm_r_0_same_mass_eq, z0_r_0_C, z0_r_0_eq, z0_tlog_eq, z0_tlog_t_eq, toC_complex, toC_real, ofR_complex, ofR_real, toC_ofR, toC_zero, toC_energy, toC_bose, map_mul, map_add, map_neg, map_sub, map_inv₀, map_div₀, neg_neg, neg_mul_neg, inv_neg]
  try ring_nf

theorem even_om_thermal_zero_momentum_i_m_m_i_same_mass (q : ℝ) (om : T1) (m : T2) (beta : ℝ) :
    thermal.zero_momentum.i_m_m_i_same_mass q (-om) m beta = thermal.zero_momentum.i_m_m_i_same_mass q om m beta := by
  rw [toC_thermal_zero_momentum_i_m_m_i_same_mass q (-om) m beta, toC_thermal_zero_momentum_i_m_m_i_same_mass q om m beta]
  simp only [thermal.zero_momentum.i_m_m_i_same_mass, r_0_eq, r_0_same_mass_eq, tlog_eq, tlog_same_mass_eq, tlog_zero_mass_eq, tlog_l_eq, tlog_l_same_mass_eq, tlog_l_zero_mass_eq, tlog_t_eq, tlog_t_same_mass_eq, tlog_t_zero_mass_eq, zm_r_0_eq, zm_r_0_same_mass_eq, z0_r_0_C, z0_r_0_eq, z0_tlog_eq, z0_tlog_t_eq, toC_complex, toC_real, ofR_complex, ofR_real, toC_ofR, toC_zero, toC_energy, toC_bose, map_mul, map_add, map_neg, map_sub, map_inv₀, map_div₀, neg_neg, neg_mul_neg, inv_neg]
  try ring_nf

theorem even_om_thermal_zero_momentum_i_m_0_i (q : ℝ) (om : T1) (m : T2) (beta : ℝ) :
    thermal.zero_momentum.i_m_0_i q (-om) m beta = thermal.zero_momentum.i_m_0_i q om m beta := by
  rw [toC_thermal_zero_momentum_i_m_0_i q (-om) m beta, toC_thermal_zero_momentum_i_m_0_i q om m beta]
  simp only [thermal.zero_momentum.i_m_0_i, r_0_eq, r_0_same_mass_eq, tlog_eq, tlog_same_mass_eq, tlog_zero_mass_eq, tlog_l_eq, tlog_l_same_mass_eq, tlog_l_zero_mass_eq, tlog_t_eq, tlog_t_same_mass_eq, tlog_t_zero_mass_eq, zm_r_0_eq, zm_r_0_same_mass_eq, z0_r_0_C, z0_r_0_eq, z0_tlog_eq, z0_tlog_t_eq, toC_complex, toC_real, ofR_complex, ofR_real, toC_ofR, toC_zero, toC_energy, toC_bose, map_mul, map_add, map_neg, map_sub, map_inv₀, map_div₀, neg_neg, neg_mul_neg, inv_neg]
  try ring_nf

theorem even_om_thermal_zero_momentum_i_0_0_i (q : ℝ) (om : T) (beta : ℝ) :
    thermal.zero_momentum.i_0_0_i q (-om) beta = thermal.zero_momentum.i_0_0_i q om beta := by
  rw [toC_thermal_zero_momentum_i_0_0_i q (-om) beta, toC_thermal_zero_momentum_i_0_0_i q om beta]
  simp only [thermal.zero_momentum.i_0_0_i, r_0_eq, r_0_same_mass_eq, tlog_eq, tlog_same_mass_eq, tlog_zero_mass_eq, tlog_l_eq, tlog_l_same_mass_eq, tlog_l_zero_mass_eq, tlog_t_eq, tlog_t_same_mass_eq, tlog_t_zero_mass_eq, zm_r_0_eq, zm_r_0_same_mass_eq, z0_r_0_C, z0_r_0_eq, z0_tlog_eq, z0_tlog_t_eq, toC_complex, toC_real, ofR_complex, ofR_real, toC_ofR, toC_zero, toC_energy, toC_bose, map_mul, map_add, map_neg, map_sub, map_inv₀, map_div₀, neg_neg, neg_mul_neg, inv_neg]
  try ring_nf

theorem even_om_thermal_zero_momentum_i_m_m_l_i (q : ℝ) (om : T1) (m1 : T2) (m2 : T3) (beta : ℝ) :
    thermal.zero_momentum.i_m_m_l_i q (-om) m1 m2 beta = thermal.zero_momentum.i_m_m_l_i q om m1 m2 beta := by
  rw [toC_thermal_zero_momentum_i_m_m_l_i q (-om) m1 m2 beta, toC_thermal_zero_momentum_i_m_m_l_i q om m1 m2 beta]
  simp only [thermal.zero_momentum.i_m_m_l_i, r_0_eq, r_0_same_mass_eq, tlog_eq, tlog_same_mass_eq, tlog_zero_mass_eq, tlog_l_eq, tlog_l_same_mass_eq, tlog_l_zero_mass_eq, tlog_t_eq, tlog_t_same_mass_eq, tlog_t_zero_mass_eq, zm_r_0_eq, zm_r_0_same_mass_eq, z0_r_0_C, z0_r_0_eq, z0_tlog_eq, z0_tlog_t_eq, toC_complex, toC_real, ofR_complex, ofR_real, toC_ofR, toC_zero, toC_energy, toC_bose, map_mul, map_add, map_neg, map_sub, map_inv₀, map_div₀, neg_neg, neg_mul_neg, inv_neg]
  try ring_nf

theorem even_om_thermal_zero_momentum_i_m_m_l_i_same_mass (q : ℝ) (om : T1) (m : T2) (beta : ℝ) :
    thermal.zero_momentum.i_m_m_l_i_same_mass q (-om) m beta = thermal.zero_momentum.i_m_m_l_i_same_mass q om m beta := by
  rw [toC_thermal_zero_momentum_i_m_m_l_i_same_mass q (-om) m beta, toC_thermal_zero_momentum_i_m_m_l_i_same_mass q om m beta]
  simp only [thermal.zero_momentum.i_m_m_l_i_same_mass, r_0_eq, r_0_same_mass_eq, tlog_eq, tlog_same_mass_eq, tlog_zero_mass_eq, tlog_l_eq, tlog_l_same_mass_eq, tlog_l_zero_mass_eq, tlog_t_eq, tlog_t_same_mass_eq, tlog_t_zero_mass_eq, zm_r_0_eq, zm_r_0_same_mass_eq, z0_r_0_C, z0_r_0_eq, z0_tlog_eq, z0_tlog_t_eq, toC_complex, toC_real, ofR_complex, ofR_real, toC_ofR, toC_zero, toC_energy, toC_bose, map_mul, map_add, map_neg, map_sub, map_inv₀, map_div₀, neg_neg, neg_mul_neg, inv_neg]
  try ring_nf

theorem even_om_thermal_zero_momentum_i_m_0_l_i (q : ℝ) (om : T1) (m : T2) (beta : ℝ) :
    thermal.zero_momentum.i_m_0_l_i q (-om) m beta = thermal.zero_momentum.i_m_0_l_i q om m beta := by
  rw [toC_thermal_zero_momentum_i_m_0_l_i q (-om) m beta, toC_thermal_zero_momentum_i_m_0_l_i q om m beta]
  simp only [thermal.zero_momentum.i_m_0_l_i, r_0_eq, r_0_same_mass_eq, tlog_eq, tlog_same_mass_eq, tlog_zero_mass_eq, tlog_l_eq, tlog_l_same_mass_eq, tlog_l_zero_mass_eq, tlog_t_eq, tlog_t_same_mass_eq, tlog_t_zero_mass_eq, zm_r_0_eq, zm_r_0_same_mass_eq, z0_r_0_C, z0_r_0_eq, z0_tlog_eq, z0_tlog_t_eq, toC_complex, toC_real, ofR_complex, ofR_real, toC_ofR, toC_zero, toC_energy, toC_bose, map_mul, map_add, map_neg, map_sub, map_inv₀, map_div₀, neg_neg, neg_mul_neg, inv_neg]
  try ring_nf

theorem even_om_thermal_zero_momentum_i_0_0_l_i (q : ℝ) (om : T) (beta : ℝ) :
    thermal.zero_momentum.i_0_0_l_i q (-om) beta = thermal.zero_momentum.i_0_0_l_i q om beta := by
  rw [toC_thermal_zero_momentum_i_0_0_l_i q (-om) beta, toC_thermal_zero_momentum_i_0_0_l_i q om beta]
  simp only [thermal.zero_momentum.i_0_0_l_i, r_0_eq, r_0_same_mass_eq, tlog_eq, tlog_same_mass_eq, tlog_zero_mass_eq, tlog_l_eq, tlog_l_same_mass_eq, tlog_l_zero_mass_eq, tlog_t_eq, tlog_t_same_mass_eq, tlog_t_zero_mass_eq, zm_r_0_eq, zm_r_0_same_mass_eq, z0_r_0_C, z0_r_0_eq, z0_tlog_eq, z0_tlog_t_eq, toC_complex, toC_real, ofR_complex, ofR_real, toC_ofR, toC_zero, toC_energy, toC_bose, map_mul, map_add, map_neg, map_sub, map_inv₀, map_div₀, neg_neg, neg_mul_neg, inv_neg]
  try ring_nf

theorem even_om_thermal_zero_momentum_i_m_m_t_i (q : ℝ) (om : T1) (m1 : T2) (m2 : T3) (beta : ℝ) :
    thermal.zero_momentum.i_m_m_t_i q (-om) m1 m2 beta = thermal.zero_momentum.i_m_m_t_i q om m1 m2 beta := by
  rw [toC_thermal_zero_momentum_i_m_m_t_i q (-om) m1 m2 beta, toC_thermal_zero_momentum_i_m_m_t_i q om m1 m2 beta]
  simp only [thermal.zero_momentum.i_m_m_t_i, thermal.zero_momentum.i_m_m_l_i, r_0_eq, r_0_same_mass_eq, tlog_eq, tlog_same_mass_eq, tlog_zero_mass_eq, tlog_l_eq, tlog_l_same_mass_eq, tlog_l_zero_mass_eq, tlog_t_eq, tlog_t_same_mass_eq, tlog_t_zero_mass_eq, zm_r_0_eq, zm_r_0_same_mass_eq, z0_r_0_C, z0_r_0_eq, z0_tlog_eq, z0_tlog_t_eq, toC_complex, toC_real, ofR_complex, ofR_real, toC_ofR, toC_zero, toC_energy, toC_bose, map_mul, map_add, map_neg, map_sub, map_inv₀, map_div₀, neg_neg, neg_mul_neg, inv_neg]
  try ring_nf

theorem even_om_thermal_zero_momentum_i_m_m_t_i_same_mass (q : ℝ) (om : T1) (m : T2) (beta : ℝ) :
    thermal.zero_momentum.i_m_m_t_i_same_mass q (-om) m beta = thermal.zero_momentum.i_m_m_t_i_same_mass q om m beta := by
  rw [toC_thermal_zero_momentum_i_m_m_t_i_same_mass q (-om) m beta, toC_thermal_zero_momentum_i_m_m_t_i_same_mass q om m beta]
  simp only [thermal.zero_momentum.i_m_m_t_i_same_mass, thermal.zero_momentum.i_m_m_l_i_same_mass, r_0_eq, r_0_same_mass_eq, tlog_eq, tlog_same_mass_eq, tlog_zero_mass_eq, tlog_l_eq, tlog_l_same_mass_eq, tlog_l_zero_mass_eq, tlog_t_eq, tlog_t_same_mass_eq, tlog_t_zero_mass_eq, zm_r_0_eq, zm_r_0_same_mass_eq, z0_r_0_C, z0_r_0_eq, z0_tlog_eq, z0_tlog_t_eq, toC_complex, toC_real, ofR_complex, ofR_real, toC_ofR, toC_zero, toC_energy, toC_bose, map_mul, map_add, map_neg, map_sub, map_inv₀, map_div₀, neg_neg, neg_mul_neg, inv_neg]
  try ring_nf

theorem even_om_thermal_zero_momentum_i_m_0_t_i (q : ℝ) (om : T1) (m : T2) (beta : ℝ) :
    thermal.zero_momentum.i_m_0_t_i q (-om) m beta = thermal.zero_momentum.i_m_0_t_i q om m beta := by
  rw [toC_thermal_zero_momentum_i_m_0_t_i q (-om) m beta, toC_thermal_zero_momentum_i_m_0_t_i q om m beta]
  simp only [thermal.zero_momentum.i_m_0_t_i, thermal.zero_momentum.i_m_0_l_i, r_0_eq, r_0_same_mass_eq, tlog_eq, tlog_same_mass_eq, tlog_zero_mass_eq, tlog_l_eq, tlog_l_same_mass_eq, tlog_l_zero_mass_eq, tlog_t_eq, tlog_t_same_mass_eq, tlog_t_zero_mass_eq, zm_r_0_eq, zm_r_0_same_mass_eq, z0_r_0_C, z0_r_0_eq, z0_tlog_eq, z0_tlog_t_eq, toC_complex, toC_real, ofR_complex, ofR_real, toC_ofR, toC_zero, toC_energy, toC_bose, map_mul, map_add, map_neg, map_sub, map_inv₀, map_div₀, neg_neg, neg_mul_neg, inv_neg]
  try ring_nf

theorem even_om_thermal_zero_momentum_i_0_0_t_i (q : ℝ) (om : T) (beta : ℝ) :
    thermal.zero_momentum.i_0_0_t_i q (-om) beta = thermal.zero_momentum.i_0_0_t_i q om beta := by
  rw [toC_thermal_zero_momentum_i_0_0_t_i q (-om) beta, toC_thermal_zero_momentum_i_0_0_t_i q om beta]
  simp only [thermal.zero_momentum.i_0_0_t_i, thermal.zero_momentum.i_0_0_l_i, r_0_eq, r_0_same_mass_eq, tlog_eq, tlog_same_mass_eq, tlog_zero_mass_eq, tlog_l_eq, tlog_l_same_mass_eq, tlog_l_zero_mass_eq, tlog_t_eq, tlog_t_same_mass_eq, tlog_t_zero_mass_eq, zm_r_0_eq, zm_r_0_same_mass_eq, z0_r_0_C, z0_r_0_eq, z0_tlog_eq, z0_tlog_t_eq, toC_complex, toC_real, ofR_complex, ofR_real, toC_ofR, toC_zero, toC_energy, toC_bose, map_mul, map_add, map_neg, map_sub, map_inv₀, map_div₀, neg_neg, neg_mul_neg, inv_neg]
  try ring_nf

theorem even_om_thermal_zero_momentum_d_i_m_m_i (q : ℝ) (om : T1) (m1 : T2) (m2 : T3) (beta : ℝ) :
    thermal.zero_momentum.d_i_m_m_i q (-om) m1 m2 beta = thermal.zero_momentum.d_i_m_m_i q om m1 m2 beta := by
  rw [toC_thermal_zero_momentum_d_i_m_m_i q (-om) m1 m2 beta, toC_thermal_zero_momentum_d_i_m_m_i q om m1 m2 beta]
  simp only [thermal.zero_momentum.d_i_m_m_i, r_0_eq, r_0_same_mass_eq, tlog_eq, tlog_same_mass_eq, tlog_zero_mass_eq, tlog_l_eq, tlog_l_same_mass_eq, tlog_l_zero_mass_eq, tlog_t_eq, tlog_t_same_mass_eq, tlog_t_zero_mass_eq, zm_r_0_eq, zm_r_0_same_mass_eq, z0_r_0_C, z0_r_0_eq, z0_tlog_eq, z0_tlog_t_eq, toC_complex, toC_real, ofR_complex, ofR_real, toC_ofR, toC_zero, toC_energy, toC_bose, map_mul, map_add, map_neg, map_sub, map_inv₀, map_div₀, neg_neg, neg_mul_neg, inv_neg]
  try ring_nf

theorem even_om_thermal_zero_momentum_d_i_m_m_i_same_mass (q : ℝ) (om : T1) (m : T2) (beta : ℝ) :
    thermal.zero_momentum.d_i_m_m_i_same_mass q (-om) m beta = thermal.zero_momentum.d_i_m_m_i_same_mass q om m beta := by
  rw [toC_thermal_zero_momentum_d_i_m_m_i_same_mass q (-om) m beta, toC_thermal_zero_momentum_d_i_m_m_i_same_mass q om m beta]
  simp only [thermal.zero_momentum.d_i_m_m_i_same_mass, r_0_eq, r_0_same_mass_eq, tlog_eq, tlog_same_mass_eq, tlog_zero_mass_eq, tlog_l_eq, tlog_l_same_mass_eq, tlog_l_zero_mass_eq, tlog_t_eq, tlog_t_same_mass_eq, tlog_t_zero_mass_eq, zm_r_0_eq, zm_r_0_same_mass_eq, z0_r_0_C, z0_r_0_eq, z0_tlog_eq, z0_tlog_t_eq, toC_complex, toC_real, ofR_complex, ofR_real, toC_ofR, toC_zero, toC_energy, toC_bose, map_mul, map_add, map_neg, map_sub, map_inv₀, map_div₀, neg_neg, neg_mul_neg, inv_neg]
  try ring_nf

theorem even_om_thermal_zero_momentum_d_i_m_0_i (q : ℝ) (om : T1) (m : T2) (beta : ℝ) :
    thermal.zero_momentum.d_i_m_0_i q (-om) m beta = thermal.zero_momentum.d_i_m_0_i q om m beta := by
  rw [toC_thermal_zero_momentum_d_i_m_0_i q (-om) m beta, toC_thermal_zero_momentum_d_i_m_0_i q om m beta]
  simp only [thermal.zero_momentum.d_i_m_0_i, r_0_eq, r_0_same_mass_eq, tlog_eq, tlog_same_mass_eq, tlog_zero_mass_eq, tlog_l_eq, tlog_l_same_mass_eq, tlog_l_zero_mass_eq, tlog_t_eq, tlog_t_same_mass_eq, tlog_t_zero_mass_eq, zm_r_0_eq, zm_r_0_same_mass_eq, z0_r_0_C, z0_r_0_eq, z0_tlog_eq, z0_tlog_t_eq, toC_complex, toC_real, ofR_complex, ofR_real, toC_ofR, toC_zero, toC_energy, toC_bose, map_mul, map_add, map_neg, map_sub, map_inv₀, map_div₀, neg_neg, neg_mul_neg, inv_neg]
  try ring_nf

theorem even_om_thermal_zero_momentum_d_i_0_0_i (q : ℝ) (om : T) (beta : ℝ) :
    thermal.zero_momentum.d_i_0_0_i q (-om) beta = thermal.zero_momentum.d_i_0_0_i q om beta := by
  rw [toC_thermal_zero_momentum_d_i_0_0_i q (-om) beta, toC_thermal_zero_momentum_d_i_0_0_i q om beta]
  simp only [thermal.zero_momentum.d_i_0_0_i, r_0_eq, r_0_same_mass_eq, tlog_eq, tlog_same_mass_eq, tlog_zero_mass_eq, tlog_l_eq, tlog_l_same_mass_eq, tlog_l_zero_mass_eq, tlog_t_eq, tlog_t_same_mass_eq, tlog_t_zero_mass_eq, zm_r_0_eq, zm_r_0_same_mass_eq, z0_r_0_C, z0_r_0_eq, z0_tlog_eq, z0_tlog_t_eq, toC_complex, toC_real, ofR_complex, ofR_real, toC_ofR, toC_zero, toC_energy, toC_bose, map_mul, map_add, map_neg, map_sub, map_inv₀, map_div₀, neg_neg, neg_mul_neg, inv_neg]
  try ring_nf

theorem even_om_thermal_zero_momentum_d_i_m_m_l_i (q : ℝ) (om : T1) (m1 : T2) (m2 : T3) (beta : ℝ) :
    thermal.zero_momentum.d_i_m_m_l_i q (-om) m1 m2 beta = thermal.zero_momentum.d_i_m_m_l_i q om m1 m2 beta := by
  rw [toC_thermal_zero_momentum_d_i_m_m_l_i q (-om) m1 m2 beta, toC_thermal_zero_momentum_d_i_m_m_l_i q om m1 m2 beta]
  simp only [thermal.zero_momentum.d_i_m_m_l_i, r_0_eq, r_0_same_mass_eq, tlog_eq, tlog_same_mass_eq, tlog_zero_mass_eq, tlog_l_eq, tlog_l_same_mass_eq, tlog_l_zero_mass_eq, tlog_t_eq, tlog_t_same_mass_eq, tlog_t_zero_mass_eq, zm_r_0_eq, zm_r_0_same_mass_eq, z0_r_0_C, z0_r_0_eq, z0_tlog_eq, z0_tlog_t_eq, toC_complex, toC_real, ofR_complex, ofR_real, toC_ofR, toC_zero, toC_energy, toC_bose, map_mul, map_add, map_neg, map_sub, map_inv₀, map_div₀, neg_neg, neg_mul_neg, inv_neg]
  try ring_nf

theorem even_om_thermal_zero_momentum_d_i_m_m_l_i_same_mass (q : ℝ) (om : T1) (m : T2) (beta : ℝ) :
    thermal.zero_momentum.d_i_m_m_l_i_same_mass q (-om) m beta = thermal.zero_momentum.d_i_m_m_l_i_same_mass q om m beta := by
  rw [toC_thermal_zero_momentum_d_i_m_m_l_i_same_mass q (-om) m beta, toC_thermal_zero_momentum_d_i_m_m_l_i_same_mass q om m beta]
  simp only [thermal.zero_momentum.d_i_m_m_l_i_same_mass, r_0_eq, r_0_same_mass_eq, tlog_eq, tlog_same_mass_eq, tlog_zero_mass_eq, tlog_l_eq, tlog_l_same_mass_eq, tlog_l_zero_mass_eq, tlog_t_eq, tlog_t_same_mass_eq, tlog_t_zero_mass_eq, zm_r_0_eq, zm_r_0_same_mass_eq, z0_r_0_C, z0_r_0_eq, z0_tlog_eq, z0_tlog_t_eq, toC_complex, toC_real, ofR_complex, ofR_real, toC_ofR, toC_zero, toC_energy, toC_bose, map_mul, map_add, map_neg, map_sub, map_inv₀, map_div₀, neg_neg, neg_mul_neg, inv_neg]
  try ring_nf

theorem even_om_thermal_zero_momentum_d_i_m_0_l_i (q : ℝ) (om : T1) (m : T2) (beta : ℝ) :
    thermal.zero_momentum.d_i_m_0_l_i q (-om) m beta = thermal.zero_momentum.d_i_m_0_l_i q om m beta := by
  rw [toC_thermal_zero_momentum_d_i_m_0_l_i q (-om) m beta, toC_thermal_zero_momentum_d_i_m_0_l_i q om m beta]
  simp only [thermal.zero_momentum.d_i_m_0_l_i, r_0_eq, r_0_same_mass_eq, tlog_eq, tlog_same_mass_eq, tlog_zero_mass_eq, tlog_l_eq, tlog_l_same_mass_eq, tlog_l_zero_mass_eq, tlog_t_eq, tlog_t_same_mass_eq, tlog_t_zero_mass_eq, zm_r_0_eq, zm_r_0_same_mass_eq, z0_r_0_C, z0_r_0_eq, z0_tlog_eq, z0_tlog_t_eq, toC_complex, toC_real, ofR_complex, ofR_real, toC_ofR, toC_zero, toC_energy, toC_bose, map_mul, map_add, map_neg, map_sub, map_inv₀, map_div₀, neg_neg, neg_mul_neg, inv_neg]
  try ring_nf

theorem even_om_thermal_zero_momentum_d_i_0_0_l_i (q : ℝ) (om : T) (beta : ℝ) :
    thermal.zero_momentum.d_i_0_0_l_i q (-om) beta = thermal.zero_momentum.d_i_0_0_l_i q om beta := by
  rw [toC_thermal_zero_momentum_d_i_0_0_l_i q (-om) beta, toC_thermal_zero_momentum_d_i_0_0_l_i q om beta]
  simp only [thermal.zero_momentum.d_i_0_0_l_i, r_0_eq, r_0_same_mass_eq, tlog_eq, tlog_same_mass_eq, tlog_zero_mass_eq, tlog_l_eq, tlog_l_same_mass_eq, tlog_l_zero_mass_eq, tlog_t_eq, tlog_t_same_mass_eq, tlog_t_zero_mass_eq, zm_r_0_eq, zm_r_0_same_mass_eq, z0_r_0_C, z0_r_0_eq, z0_tlog_eq, z0_tlog_t_eq, toC_complex, toC_real, ofR_complex, ofR_real, toC_ofR, toC_zero, toC_energy, toC_bose, map_mul, map_add, map_neg, map_sub, map_inv₀, map_div₀, neg_neg, neg_mul_neg, inv_neg]
  try ring_nf

theorem even_om_thermal_zero_momentum_d_i_m_m_t_i (q : ℝ) (om : T1) (m1 : T2) (m2 : T3) (beta : ℝ) :
    thermal.zero_momentum.d_i_m_m_t_i q (-om) m1 m2 beta = thermal.zero_momentum.d_i_m_m_t_i q om m1 m2 beta := by
  rw [toC_thermal_zero_momentum_d_i_m_m_t_i q (-om) m1 m2 beta, toC_thermal_zero_momentum_d_i_m_m_t_i q om m1 m2 beta]
  simp only [thermal.zero_momentum.d_i_m_m_t_i, thermal.zero_momentum.d_i_m_m_l_i, r_0_eq, r_0_same_mass_eq, tlog_eq, tlog_same_mass_eq, tlog_zero_mass_eq, tlog_l_eq, tlog_l_same_mass_eq, tlog_l_zero_mass_eq, tlog_t_eq, tlog_t_same_mass_eq, tlog_t_zero_mass_eq, zm_r_0_eq, zm_r_0_same_mass_eq, z0_r_0_C, z0_r_0_eq, z0_tlog_eq, z0_tlog_t_eq, toC_complex, toC_real, ofR_complex, ofR_real, toC_ofR, toC_zero, toC_energy, toC_bose, map_mul, map_add, map_neg, map_sub, map_inv₀, map_div₀, neg_neg, neg_mul_neg, inv_neg]
  try ring_nf

theorem even_om_thermal_zero_momentum_d_i_m_m_t_i_same_mass (q : ℝ) (om : T1) (m : T2) (beta : ℝ) :
    thermal.zero_momentum.d_i_m_m_t_i_same_mass q (-om) m beta = thermal.zero_momentum.d_i_m_m_t_i_same_mass q om m beta := by
  rw [toC_thermal_zero_momentum_d_i_m_m_t_i_same_mass q (-om) m beta, toC_thermal_zero_momentum_d_i_m_m_t_i_same_mass q om m beta]
  simp only [thermal.zero_momentum.d_i_m_m_t_i_same_mass, thermal.zero_momentum.d_i_m_m_l_i_same_mass, r_0_eq, r_0_same_mass_eq, tlog_eq, tlog_same_mass_eq, tlog_zero_mass_eq, tlog_l_eq, tlog_l_same_mass_eq, tlog_l_zero_mass_eq, tlog_t_eq, tlog_t_same_mass_eq, tlog_t_zero_mass_eq, zm_r_0_eq, zm_r_0_same_mass_eq, z0_r_0_C, z0_r_0_eq, z0_tlog_eq, z0_tlog_t_eq, toC_complex, toC_real, ofR_complex, ofR_real, toC_ofR, toC_zero, toC_energy, toC_bose, map_mul, map_add, map_neg, map_sub, map_inv₀, map_div₀, neg_neg, neg_mul_neg, inv_neg]
  try ring_nf

theorem even_om_thermal_zero_momentum_d_i_m_0_t_i (q : ℝ) (om : T1) (m : T2) (beta : ℝ) :
    thermal.zero_momentum.d_i_m_0_t_i q (-om) m beta = thermal.zero_momentum.d_i_m_0_t_i q om m beta := by
  rw [toC_thermal_zero_momentum_d_i_m_0_t_i q (-om) m beta, toC_thermal_zero_momentum_d_i_m_0_t_i q om m beta]
  simp only [thermal.zero_momentum.d_i_m_0_t_i, thermal.zero_momentum.d_i_m_0_l_i, r_0_eq, r_0_same_mass_eq, tlog_eq, tlog_same_mass_eq, tlog_zero_mass_eq, tlog_l_eq, tlog_l_same_mass_eq, tlog_l_zero_mass_eq, tlog_t_eq, tlog_t_same_mass_eq, tlog_t_zero_mass_eq, zm_r_0_eq, zm_r_0_same_mass_eq, z0_r_0_C, z0_r_0_eq, z0_tlog_eq, z0_tlog_t_eq, toC_complex, toC_real, ofR_complex, ofR_real, toC_ofR, toC_zero, toC_energy, toC_bose, map_mul, map_add, map_neg, map_sub, map_inv₀, map_div₀, neg_neg, neg_mul_neg, inv_neg]
  try ring_nf

theorem even_om_thermal_zero_momentum_d_i_0_0_t_i (q : ℝ) (om : T) (beta : ℝ) :
    thermal.zero_momentum.d_i_0_0_t_i q (-om) beta = thermal.zero_momentum.d_i_0_0_t_i q om beta := by
  rw [toC_thermal_zero_momentum_d_i_0_0_t_i q (-om) beta, toC_thermal_zero_momentum_d_i_0_0_t_i q om beta]
  simp only [thermal.zero_momentum.d_i_0_0_t_i, thermal.zero_momentum.d_i_0_0_l_i, r_0_eq, r_0_same_mass_eq, tlog_eq, tlog_same_mass_eq, tlog_zero_mass_eq, tlog_l_eq, tlog_l_same_mass_eq, tlog_l_zero_mass_eq, tlog_t_eq, tlog_t_same_mass_eq, tlog_t_zero_mass_eq, zm_r_0_eq, zm_r_0_same_mass_eq, z0_r_0_C, z0_r_0_eq, z0_tlog_eq, z0_tlog_t_eq, toC_complex, toC_real, ofR_complex, ofR_real, toC_ofR, toC_zero, toC_energy, toC_bose, map_mul, map_add, map_neg, map_sub, map_inv₀, map_div₀, neg_neg, neg_mul_neg, inv_neg]
  try ring_nf

theorem even_om_ghost_thermal_self_energy_thermal_part_landau_i (q : ℝ) (om : T) (p : ℝ) (m : ℝ) (beta : ℝ) :
    ghost.thermal.self_energy_thermal_part_landau_i q (-om) p m beta = ghost.thermal.self_energy_thermal_part_landau_i q om p m beta := by
  simp only [ghost.thermal.self_energy_thermal_part_landau_i, even_om_thermal_i_m_m_i, even_om_thermal_i_m_m_i_same_mass, even_om_thermal_i_m_0_i, even_om_thermal_i_0_0_i, even_om_thermal_i_m_m_l_i, even_om_thermal_i_m_m_l_i_same_mass, even_om_thermal_i_m_0_l_i, even_om_thermal_i_0_0_l_i, even_om_thermal_i_m_m_t_i, even_om_thermal_i_m_m_t_i_same_mass, even_om_thermal_i_m_0_t_i, even_om_thermal_i_0_0_t_i, even_om_thermal_d_i_m_m_i, even_om_thermal_d_i_m_m_i_same_mass, even_om_thermal_d_i_m_0_i, even_om_thermal_d_i_0_0_i, even_om_thermal_d_i_m_m_l_i, even_om_thermal_d_i_m_m_l_i_same_mass, even_om_thermal_d_i_m_0_l_i, even_om_thermal_d_i_0_0_l_i, even_om_thermal_d_i_m_m_t_i, even_om_thermal_d_i_m_m_t_i_same_mass, even_om_thermal_d_i_m_0_t_i, even_om_thermal_d_i_0_0_t_i, even_om_thermal_zero_momentum_i_m_m_i, even_om_thermal_zero_momentum_i_m_m_i_same_mass, even_om_thermal_zero_momentum_i_m_0_i, even_om_thermal_zero_momentum_i_0_0_i, even_om_thermal_zero_momentum_i_m_m_l_i, even_om_thermal_zero_momentum_i_m_m_l_i_same_mass, even_om_thermal_zero_momentum_i_m_0_l_i, even_om_thermal_zero_momentum_i_0_0_l_i, even_om_thermal_zero_momentum_i_m_m_t_i, even_om_thermal_zero_momentum_i_m_m_t_i_same_mass, even_om_thermal_zero_momentum_i_m_0_t_i, even_om_thermal_zero_momentum_i_0_0_t_i, even_om_thermal_zero_momentum_d_i_m_m_i, even_om_thermal_zero_momentum_d_i_m_m_i_same_mass, even_om_thermal_zero_momentum_d_i_m_0_i, even_om_thermal_zero_momentum_d_i_0_0_i, even_om_thermal_zero_momentum_d_i_m_m_l_i, even_om_thermal_zero_momentum_d_i_m_m_l_i_same_mass, even_om_thermal_zero_momentum_d_i_m_0_l_i, even_om_thermal_zero_momentum_d_i_0_0_l_i, even_om_thermal_zero_momentum_d_i_m_m_t_i, even_om_thermal_zero_momentum_d_i_m_m_t_i_same_mass, even_om_thermal_zero_momentum_d_i_m_0_t_i, even_om_thermal_zero_momentum_d_i_0_0_t_i, neg_mul_neg]

theorem even_om_ghost_thermal_zero_momentum_self_energy_thermal_part_landau_i (q : ℝ) (om : T) (m : ℝ) (beta : ℝ) :
    ghost.thermal.zero_momentum.self_energy_thermal_part_landau_i q (-om) m beta = ghost.thermal.zero_momentum.self_energy_thermal_part_landau_i q om m beta := by
  simp only [ghost.thermal.zero_momentum.self_energy_thermal_part_landau_i, even_om_thermal_i_m_m_i, even_om_thermal_i_m_m_i_same_mass, even_om_thermal_i_m_0_i, even_om_thermal_i_0_0_i, even_om_thermal_i_m_m_l_i, even_om_thermal_i_m_m_l_i_same_mass, even_om_thermal_i_m_0_l_i, even_om_thermal_i_0_0_l_i, even_om_thermal_i_m_m_t_i, even_om_thermal_i_m_m_t_i_same_mass, even_om_thermal_i_m_0_t_i, even_om_thermal_i_0_0_t_i, even_om_thermal_d_i_m_m_i, even_om_thermal_d_i_m_m_i_same_mass, even_om_thermal_d_i_m_0_i, even_om_thermal_d_i_0_0_i, even_om_thermal_d_i_m_m_l_i, even_om_thermal_d_i_m_m_l_i_same_mass, even_om_thermal_d_i_m_0_l_i, even_om_thermal_d_i_0_0_l_i, even_om_thermal_d_i_m_m_t_i, even_om_thermal_d_i_m_m_t_i_same_mass, even_om_thermal_d_i_m_0_t_i, even_om_thermal_d_i_0_0_t_i, even_om_thermal_zero_momentum_i_m_m_i, even_om_thermal_zero_momentum_i_m_m_i_same_mass, even_om_thermal_zero_momentum_i_m_0_i, even_om_thermal_zero_momentum_i_0_0_i, even_om_thermal_zero_momentum_i_m_m_l_i, even_om_thermal_zero_momentum_i_m_m_l_i_same_mass, even_om_thermal_zero_momentum_i_m_0_l_i, even_om_thermal_zero_momentum_i_0_0_l_i, even_om_thermal_zero_momentum_i_m_m_t_i, even_om_thermal_zero_momentum_i_m_m_t_i_same_mass, even_om_thermal_zero_momentum_i_m_0_t_i, even_om_thermal_zero_momentum_i_0_0_t_i, even_om_thermal_zero_momentum_d_i_m_m_i, even_om_thermal_zero_momentum_d_i_m_m_i_same_mass, even_om_thermal_zero_momentum_d_i_m_0_i, even_om_thermal_zero_momentum_d_i_0_0_i, even_om_thermal_zero_momentum_d_i_m_m_l_i, even_om_thermal_zero_momentum_d_i_m_m_l_i_same_mass, even_om_thermal_zero_momentum_d_i_m_0_l_i, even_om_thermal_zero_momentum_d_i_0_0_l_i, even_om_thermal_zero_momentum_d_i_m_m_t_i, even_om_thermal_zero_momentum_d_i_m_m_t_i_same_mass, even_om_thermal_zero_momentum_d_i_m_0_t_i, even_om_thermal_zero_momentum_d_i_0_0_t_i, neg_mul_neg]

theorem even_om_gluon_thermal_polarization_glue_l_thermal_part_landau_i (q : ℝ) (om : T1) (p : T2) (m : ℝ) (beta : ℝ) :
    gluon.thermal.polarization_glue_l_thermal_part_landau_i q (-om) p m beta = gluon.thermal.polarization_glue_l_thermal_part_landau_i q om p m beta := by
  simp only [gluon.thermal.polarization_glue_l_thermal_part_landau_i, even_om_thermal_i_m_m_i, even_om_thermal_i_m_m_i_same_mass, even_om_thermal_i_m_0_i, even_om_thermal_i_0_0_i, even_om_thermal_i_m_m_l_i, even_om_thermal_i_m_m_l_i_same_mass, even_om_thermal_i_m_0_l_i, even_om_thermal_i_0_0_l_i, even_om_thermal_i_m_m_t_i, even_om_thermal_i_m_m_t_i_same_mass, even_om_thermal_i_m_0_t_i, even_om_thermal_i_0_0_t_i, even_om_thermal_d_i_m_m_i, even_om_thermal_d_i_m_m_i_same_mass, even_om_thermal_d_i_m_0_i, even_om_thermal_d_i_0_0_i, even_om_thermal_d_i_m_m_l_i, even_om_thermal_d_i_m_m_l_i_same_mass, even_om_thermal_d_i_m_0_l_i, even_om_thermal_d_i_0_0_l_i, even_om_thermal_d_i_m_m_t_i, even_om_thermal_d_i_m_m_t_i_same_mass, even_om_thermal_d_i_m_0_t_i, even_om_thermal_d_i_0_0_t_i, even_om_thermal_zero_momentum_i_m_m_i, even_om_thermal_zero_momentum_i_m_m_i_same_mass, even_om_thermal_zero_momentum_i_m_0_i, even_om_thermal_zero_momentum_i_0_0_i, even_om_thermal_zero_momentum_i_m_m_l_i, even_om_thermal_zero_momentum_i_m_m_l_i_same_mass, even_om_thermal_zero_momentum_i_m_0_l_i, even_om_thermal_zero_momentum_i_0_0_l_i, even_om_thermal_zero_momentum_i_m_m_t_i, even_om_thermal_zero_momentum_i_m_m_t_i_same_mass, even_om_thermal_zero_momentum_i_m_0_t_i, even_om_thermal_zero_momentum_i_0_0_t_i, even_om_thermal_zero_momentum_d_i_m_m_i, even_om_thermal_zero_momentum_d_i_m_m_i_same_mass, even_om_thermal_zero_momentum_d_i_m_0_i, even_om_thermal_zero_momentum_d_i_0_0_i, even_om_thermal_zero_momentum_d_i_m_m_l_i, even_om_thermal_zero_momentum_d_i_m_m_l_i_same_mass, even_om_thermal_zero_momentum_d_i_m_0_l_i, even_om_thermal_zero_momentum_d_i_0_0_l_i, even_om_thermal_zero_momentum_d_i_m_m_t_i, even_om_thermal_zero_momentum_d_i_m_m_t_i_same_mass, even_om_thermal_zero_momentum_d_i_m_0_t_i, even_om_thermal_zero_momentum_d_i_0_0_t_i, neg_mul_neg]

theorem even_om_gluon_thermal_polarization_glue_t_thermal_part_landau_i (q : ℝ) (om : T) (p : ℝ) (m : ℝ) (beta : ℝ) :
    gluon.thermal.polarization_glue_t_thermal_part_landau_i q (-om) p m beta = gluon.thermal.polarization_glue_t_thermal_part_landau_i q om p m beta := by
  simp only [gluon.thermal.polarization_glue_t_thermal_part_landau_i, even_om_thermal_i_m_m_i, even_om_thermal_i_m_m_i_same_mass, even_om_thermal_i_m_0_i, even_om_thermal_i_0_0_i, even_om_thermal_i_m_m_l_i, even_om_thermal_i_m_m_l_i_same_mass, even_om_thermal_i_m_0_l_i, even_om_thermal_i_0_0_l_i, even_om_thermal_i_m_m_t_i, even_om_thermal_i_m_m_t_i_same_mass, even_om_thermal_i_m_0_t_i, even_om_thermal_i_0_0_t_i, even_om_thermal_d_i_m_m_i, even_om_thermal_d_i_m_m_i_same_mass, even_om_thermal_d_i_m_0_i, even_om_thermal_d_i_0_0_i, even_om_thermal_d_i_m_m_l_i, even_om_thermal_d_i_m_m_l_i_same_mass, even_om_thermal_d_i_m_0_l_i, even_om_thermal_d_i_0_0_l_i, even_om_thermal_d_i_m_m_t_i, even_om_thermal_d_i_m_m_t_i_same_mass, even_om_thermal_d_i_m_0_t_i, even_om_thermal_d_i_0_0_t_i, even_om_thermal_zero_momentum_i_m_m_i, even_om_thermal_zero_momentum_i_m_m_i_same_mass, even_om_thermal_zero_momentum_i_m_0_i, even_om_thermal_zero_momentum_i_0_0_i, even_om_thermal_zero_momentum_i_m_m_l_i, even_om_thermal_zero_momentum_i_m_m_l_i_same_mass, even_om_thermal_zero_momentum_i_m_0_l_i, even_om_thermal_zero_momentum_i_0_0_l_i, even_om_thermal_zero_momentum_i_m_m_t_i, even_om_thermal_zero_momentum_i_m_m_t_i_same_mass, even_om_thermal_zero_momentum_i_m_0_t_i, even_om_thermal_zero_momentum_i_0_0_t_i, even_om_thermal_zero_momentum_d_i_m_m_i, even_om_thermal_zero_momentum_d_i_m_m_i_same_mass, even_om_thermal_zero_momentum_d_i_m_0_i, even_om_thermal_zero_momentum_d_i_0_0_i, even_om_thermal_zero_momentum_d_i_m_m_l_i, even_om_thermal_zero_momentum_d_i_m_m_l_i_same_mass, even_om_thermal_zero_momentum_d_i_m_0_l_i, even_om_thermal_zero_momentum_d_i_0_0_l_i, even_om_thermal_zero_momentum_d_i_m_m_t_i, even_om_thermal_zero_momentum_d_i_m_m_t_i_same_mass, even_om_thermal_zero_momentum_d_i_m_0_t_i, even_om_thermal_zero_momentum_d_i_0_0_t_i, neg_mul_neg]

theorem even_om_gluon_thermal_polarization_quark_l_thermal_part_landau_i (k : Consts ℝ) (q : ℝ) (om : T1) (p : T2) (mq : ℝ) (beta : ℝ) (mu : ℝ) :
    gluon.thermal.polarization_quark_l_thermal_part_landau_i k q (-om) p mq beta mu = gluon.thermal.polarization_quark_l_thermal_part_landau_i k q om p mq beta mu := by
  rw [toC_gluon_thermal_polarization_quark_l_thermal_part_landau_i k q (-om) p mq beta mu, toC_gluon_thermal_polarization_quark_l_thermal_part_landau_i k q om p mq beta mu]
  simp only [gluon.thermal.polarization_quark_l_thermal_part_landau_i, r_0_eq, r_0_same_mass_eq, tlog_eq, tlog_same_mass_eq, tlog_zero_mass_eq, tlog_l_eq, tlog_l_same_mass_eq, tlog_l_zero_mass_eq, tlog_t_eq, tlog_t_same_mass_eq, tlog_t_zero_mass_eq, zm_r_0_eq, zm_r_0_same_mass_eq, z0_r_0_C, z0_r_0_eq, z0_tlog_eq, z0_tlog_t_eq, toC_complex, toC_real, ofR_complex, ofR_real, toC_ofR, toC_zero, toC_energy, toC_bose, map_mul, map_add, map_neg, map_sub, map_inv₀, map_div₀, neg_neg, neg_mul_neg, inv_neg]
  ring

theorem even_om_gluon_thermal_polarization_quark_t_thermal_part_landau_i (k : Consts ℝ) (q : ℝ) (om : T) (p : ℝ) (mq : ℝ) (beta : ℝ) (mu : ℝ) :
    gluon.thermal.polarization_quark_t_thermal_part_landau_i k q (-om) p mq beta mu = gluon.thermal.polarization_quark_t_thermal_part_landau_i k q om p mq beta mu := by
  rw [toC_gluon_thermal_polarization_quark_t_thermal_part_landau_i k q (-om) p mq beta mu, toC_gluon_thermal_polarization_quark_t_thermal_part_landau_i k q om p mq beta mu]
  simp only [gluon.thermal.polarization_quark_t_thermal_part_landau_i, r_0_eq, r_0_same_mass_eq, tlog_eq, tlog_same_mass_eq, tlog_zero_mass_eq, tlog_l_eq, tlog_l_same_mass_eq, tlog_l_zero_mass_eq, tlog_t_eq, tlog_t_same_mass_eq, tlog_t_zero_mass_eq, zm_r_0_eq, zm_r_0_same_mass_eq, z0_r_0_C, z0_r_0_eq, z0_tlog_eq, z0_tlog_t_eq, toC_complex, toC_real, ofR_complex, ofR_real, toC_ofR, toC_zero, toC_energy, toC_bose, map_mul, map_add, map_neg, map_sub, map_inv₀, map_div₀, neg_neg, neg_mul_neg, inv_neg]
  ring

theorem even_om_gluon_thermal_polarization_quark_l_thermal_part_zero_temp_landau_i (k : Consts ℝ) (q : ℝ) (om : T1) (p : T2) (mq : ℝ) (mu : ℝ) :
    gluon.thermal.polarization_quark_l_thermal_part_zero_temp_landau_i k q (-om) p mq mu = gluon.thermal.polarization_quark_l_thermal_part_zero_temp_landau_i k q om p mq mu := by
  rw [toC_gluon_thermal_polarization_quark_l_thermal_part_zero_temp_landau_i k q (-om) p mq mu, toC_gluon_thermal_polarization_quark_l_thermal_part_zero_temp_landau_i k q om p mq mu]
  simp only [gluon.thermal.polarization_quark_l_thermal_part_zero_temp_landau_i, r_0_eq, r_0_same_mass_eq, tlog_eq, tlog_same_mass_eq, tlog_zero_mass_eq, tlog_l_eq, tlog_l_same_mass_eq, tlog_l_zero_mass_eq, tlog_t_eq, tlog_t_same_mass_eq, tlog_t_zero_mass_eq, zm_r_0_eq, zm_r_0_same_mass_eq, z0_r_0_C, z0_r_0_eq, z0_tlog_eq, z0_tlog_t_eq, toC_complex, toC_real, ofR_complex, ofR_real, toC_ofR, toC_zero, toC_energy, toC_bose, map_mul, map_add, map_neg, map_sub, map_inv₀, map_div₀, neg_neg, neg_mul_neg, inv_neg]
  ring

theorem even_om_gluon_thermal_polarization_quark_t_thermal_part_zero_temp_landau_i (k : Consts ℝ) (q : ℝ) (om : T) (p : ℝ) (mq : ℝ) (mu : ℝ) :
    gluon.thermal.polarization_quark_t_thermal_part_zero_temp_landau_i k q (-om) p mq mu = gluon.thermal.polarization_quark_t_thermal_part_zero_temp_landau_i k q om p mq mu := by
  rw [toC_gluon_thermal_polarization_quark_t_thermal_part_zero_temp_landau_i k q (-om) p mq mu, toC_gluon_thermal_polarization_quark_t_thermal_part_zero_temp_landau_i k q om p mq mu]
  simp only [gluon.thermal.polarization_quark_t_thermal_part_zero_temp_landau_i, r_0_eq, r_0_same_mass_eq, tlog_eq, tlog_same_mass_eq, tlog_zero_mass_eq, tlog_l_eq, tlog_l_same_mass_eq, tlog_l_zero_mass_eq, tlog_t_eq, tlog_t_same_mass_eq, tlog_t_zero_mass_eq, zm_r_0_eq, zm_r_0_same_mass_eq, z0_r_0_C, z0_r_0_eq, z0_tlog_eq, z0_tlog_t_eq, toC_complex, toC_real, ofR_complex, ofR_real, toC_ofR, toC_zero, toC_energy, toC_bose, map_mul, map_add, map_neg, map_sub, map_inv₀, map_div₀, neg_neg, neg_mul_neg, inv_neg]
  ring

theorem even_om_gluon_thermal_zero_momentum_polarization_glue_l_thermal_part_landau_i (q : ℝ) (om : T) (m : ℝ) (beta : ℝ) :
    gluon.thermal.zero_momentum.polarization_glue_l_thermal_part_landau_i q (-om) m beta = gluon.thermal.zero_momentum.polarization_glue_l_thermal_part_landau_i q om m beta := by
  simp only [gluon.thermal.zero_momentum.polarization_glue_l_thermal_part_landau_i, even_om_thermal_i_m_m_i, even_om_thermal_i_m_m_i_same_mass, even_om_thermal_i_m_0_i, even_om_thermal_i_0_0_i, even_om_thermal_i_m_m_l_i, even_om_thermal_i_m_m_l_i_same_mass, even_om_thermal_i_m_0_l_i, even_om_thermal_i_0_0_l_i, even_om_thermal_i_m_m_t_i, even_om_thermal_i_m_m_t_i_same_mass, even_om_thermal_i_m_0_t_i, even_om_thermal_i_0_0_t_i, even_om_thermal_d_i_m_m_i, even_om_thermal_d_i_m_m_i_same_mass, even_om_thermal_d_i_m_0_i, even_om_thermal_d_i_0_0_i, even_om_thermal_d_i_m_m_l_i, even_om_thermal_d_i_m_m_l_i_same_mass, even_om_thermal_d_i_m_0_l_i, even_om_thermal_d_i_0_0_l_i, even_om_thermal_d_i_m_m_t_i, even_om_thermal_d_i_m_m_t_i_same_mass, even_om_thermal_d_i_m_0_t_i, even_om_thermal_d_i_0_0_t_i, even_om_thermal_zero_momentum_i_m_m_i, even_om_thermal_zero_momentum_i_m_m_i_same_mass, even_om_thermal_zero_momentum_i_m_0_i, even_om_thermal_zero_momentum_i_0_0_i, even_om_thermal_zero_momentum_i_m_m_l_i, even_om_thermal_zero_momentum_i_m_m_l_i_same_mass, even_om_thermal_zero_momentum_i_m_0_l_i, even_om_thermal_zero_momentum_i_0_0_l_i, even_om_thermal_zero_momentum_i_m_m_t_i, even_om_thermal_zero_momentum_i_m_m_t_i_same_mass, even_om_thermal_zero_momentum_i_m_0_t_i, even_om_thermal_zero_momentum_i_0_0_t_i, even_om_thermal_zero_momentum_d_i_m_m_i, even_om_thermal_zero_momentum_d_i_m_m_i_same_mass, even_om_thermal_zero_momentum_d_i_m_0_i, even_om_thermal_zero_momentum_d_i_0_0_i, even_om_thermal_zero_momentum_d_i_m_m_l_i, even_om_thermal_zero_momentum_d_i_m_m_l_i_same_mass, even_om_thermal_zero_momentum_d_i_m_0_l_i, even_om_thermal_zero_momentum_d_i_0_0_l_i, even_om_thermal_zero_momentum_d_i_m_m_t_i, even_om_thermal_zero_momentum_d_i_m_m_t_i_same_mass, even_om_thermal_zero_momentum_d_i_m_0_t_i, even_om_thermal_zero_momentum_d_i_0_0_t_i, neg_mul_neg]

theorem even_om_gluon_thermal_zero_momentum_polarization_glue_t_thermal_part_landau_i (q : ℝ) (om : T) (m : ℝ) (beta : ℝ) :
    gluon.thermal.zero_momentum.polarization_glue_t_thermal_part_landau_i q (-om) m beta = gluon.thermal.zero_momentum.polarization_glue_t_thermal_part_landau_i q om m beta := by
  simp only [gluon.thermal.zero_momentum.polarization_glue_t_thermal_part_landau_i, gluon.thermal.zero_momentum.polarization_glue_l_thermal_part_landau_i, even_om_thermal_i_m_m_i, even_om_thermal_i_m_m_i_same_mass, even_om_thermal_i_m_0_i, even_om_thermal_i_0_0_i, even_om_thermal_i_m_m_l_i, even_om_thermal_i_m_m_l_i_same_mass, even_om_thermal_i_m_0_l_i, even_om_thermal_i_0_0_l_i, even_om_thermal_i_m_m_t_i, even_om_thermal_i_m_m_t_i_same_mass, even_om_thermal_i_m_0_t_i, even_om_thermal_i_0_0_t_i, even_om_thermal_d_i_m_m_i, even_om_thermal_d_i_m_m_i_same_mass, even_om_thermal_d_i_m_0_i, even_om_thermal_d_i_0_0_i, even_om_thermal_d_i_m_m_l_i, even_om_thermal_d_i_m_m_l_i_same_mass, even_om_thermal_d_i_m_0_l_i, even_om_thermal_d_i_0_0_l_i, even_om_thermal_d_i_m_m_t_i, even_om_thermal_d_i_m_m_t_i_same_mass, even_om_thermal_d_i_m_0_t_i, even_om_thermal_d_i_0_0_t_i, even_om_thermal_zero_momentum_i_m_m_i, even_om_thermal_zero_momentum_i_m_m_i_same_mass, even_om_thermal_zero_momentum_i_m_0_i, even_om_thermal_zero_momentum_i_0_0_i, even_om_thermal_zero_momentum_i_m_m_l_i, even_om_thermal_zero_momentum_i_m_m_l_i_same_mass, even_om_thermal_zero_momentum_i_m_0_l_i, even_om_thermal_zero_momentum_i_0_0_l_i, even_om_thermal_zero_momentum_i_m_m_t_i, even_om_thermal_zero_momentum_i_m_m_t_i_same_mass, even_om_thermal_zero_momentum_i_m_0_t_i, even_om_thermal_zero_momentum_i_0_0_t_i, even_om_thermal_zero_momentum_d_i_m_m_i, even_om_thermal_zero_momentum_d_i_m_m_i_same_mass, even_om_thermal_zero_momentum_d_i_m_0_i, even_om_thermal_zero_momentum_d_i_0_0_i, even_om_thermal_zero_momentum_d_i_m_m_l_i, even_om_thermal_zero_momentum_d_i_m_m_l_i_same_mass, even_om_thermal_zero_momentum_d_i_m_0_l_i, even_om_thermal_zero_momentum_d_i_0_0_l_i, even_om_thermal_zero_momentum_d_i_m_m_t_i, even_om_thermal_zero_momentum_d_i_m_m_t_i_same_mass, even_om_thermal_zero_momentum_d_i_m_0_t_i, even_om_thermal_zero_momentum_d_i_0_0_t_i, neg_mul_neg]

theorem even_om_gluon_thermal_zero_momentum_polarization_quark_l_thermal_part_landau_i (k : Consts ℝ) (q : ℝ) (om : T) (mq : ℝ) (beta : ℝ) (mu : ℝ) :
    gluon.thermal.zero_momentum.polarization_quark_l_thermal_part_landau_i k q (-om) mq beta mu = gluon.thermal.zero_momentum.polarization_quark_l_thermal_part_landau_i k q om mq beta mu := by
  simp only [gluon.thermal.zero_momentum.polarization_quark_l_thermal_part_landau_i, neg_mul_neg]

theorem even_om_gluon_thermal_zero_momentum_polarization_quark_t_thermal_part_landau_i (k : Consts ℝ) (q : ℝ) (om : T) (mq : ℝ) (beta : ℝ) (mu : ℝ) :
    gluon.thermal.zero_momentum.polarization_quark_t_thermal_part_landau_i k q (-om) mq beta mu = gluon.thermal.zero_momentum.polarization_quark_t_thermal_part_landau_i k q om mq beta mu := by
  simp only [gluon.thermal.zero_momentum.polarization_quark_t_thermal_part_landau_i, gluon.thermal.zero_momentum.polarization_quark_l_thermal_part_landau_i, neg_mul_neg]

theorem even_om_gluon_thermal_zero_momentum_polarization_quark_l_thermal_part_zero_temp_landau_i (k : Consts ℝ) (q : ℝ) (om : T) (mq : ℝ) (mu : ℝ) :
    gluon.thermal.zero_momentum.polarization_quark_l_thermal_part_zero_temp_landau_i k q (-om) mq mu = gluon.thermal.zero_momentum.polarization_quark_l_thermal_part_zero_temp_landau_i k q om mq mu := by
  simp only [gluon.thermal.zero_momentum.polarization_quark_l_thermal_part_zero_temp_landau_i, neg_mul_neg]

theorem even_om_gluon_thermal_zero_momentum_polarization_quark_t_thermal_part_zero_temp_landau_i (k : Consts ℝ) (q : ℝ) (om : T) (mq : ℝ) (mu : ℝ) :
    gluon.thermal.zero_momentum.polarization_quark_t_thermal_part_zero_temp_landau_i k q (-om) mq mu = gluon.thermal.zero_momentum.polarization_quark_t_thermal_part_zero_temp_landau_i k q om mq mu := by
  simp only [gluon.thermal.zero_momentum.polarization_quark_t_thermal_part_zero_temp_landau_i, gluon.thermal.zero_momentum.polarization_quark_l_thermal_part_zero_temp_landau_i, neg_mul_neg]

theorem even_p_thermal_i_m_m_i (q : ℝ) (om : ℂ) (p : ℝ) (m1 : ℝ) (m2 : ℝ) (beta : ℝ) (h_m1 : InStrip om (energy q m1)) (h_m2 : InStrip om (energy q m2)) :
    thermal.i_m_m_i q om (-p) m1 m2 beta = thermal.i_m_m_i q om p m1 m2 beta := by
  have e_m1 : ∀ d : ℂ, d.im = 0 → TL q om (-(p : ℂ)) (energy q (m1 : ℂ)) d = -TL q om p (energy q (m1 : ℂ)) d :=
    fun d hd => TL_neg_p (h_m1.R0 p (energy_re q m1) (energy_im q m1) hd)
  have en_m1 : ∀ d : ℂ, d.im = 0 → TL q (-om) (-(p : ℂ)) (energy q (m1 : ℂ)) d = -TL q (-om) p (energy q (m1 : ℂ)) d :=
    fun d hd => TL_neg_p (h_m1.neg.R0 p (energy_re q m1) (energy_im q m1) hd)
  have e_m2 : ∀ d : ℂ, d.im = 0 → TL q om (-(p : ℂ)) (energy q (m2 : ℂ)) d = -TL q om p (energy q (m2 : ℂ)) d :=
    fun d hd => TL_neg_p (h_m2.R0 p (energy_re q m2) (energy_im q m2) hd)
  have en_m2 : ∀ d : ℂ, d.im = 0 → TL q (-om) (-(p : ℂ)) (energy q (m2 : ℂ)) d = -TL q (-om) p (energy q (m2 : ℂ)) d :=
    fun d hd => TL_neg_p (h_m2.neg.R0 p (energy_re q m2) (energy_im q m2) hd)
  rw [toC_thermal_i_m_m_i q om (-p) m1 m2 beta, toC_thermal_i_m_m_i q om p m1 m2 beta]
  simp only [thermal.i_m_m_i, r_0_eq, r_0_same_mass_eq, tlog_eq, tlog_same_mass_eq, tlog_zero_mass_eq, tlog_l_eq, tlog_l_same_mass_eq, tlog_l_zero_mass_eq, tlog_t_eq, tlog_t_same_mass_eq, tlog_t_zero_mass_eq, zm_r_0_eq, zm_r_0_same_mass_eq, z0_r_0_C, z0_r_0_eq, z0_tlog_eq, z0_tlog_t_eq, toC_complex, toC_real, ofR_complex, ofR_real, toC_ofR, toC_zero, toC_energy, toC_bose, map_mul, map_add, map_neg, map_sub, map_inv₀, map_div₀]
  try push_cast
  try simp only [ofReal_energy, ofReal_bose]
  simp only [e_m1, en_m1, e_m2, en_m2, R0_neg_p, PF_neg_p, Complex.sub_im, Complex.mul_im, Complex.neg_im, Complex.ofReal_im, Complex.zero_im, mul_zero, zero_mul, add_zero, sub_zero, neg_zero]
  try simp only [mul_inv, inv_neg]
  ring

theorem even_p_thermal_i_m_m_i_same_mass (q : ℝ) (om : ℂ) (p : ℝ) (m : ℝ) (beta : ℝ) (h_m : InStrip om (energy q m)) :
    thermal.i_m_m_i_same_mass q om (-p) m beta = thermal.i_m_m_i_same_mass q om p m beta := by
  have e_m : ∀ d : ℂ, d.im = 0 → TL q om (-(p : ℂ)) (energy q (m : ℂ)) d = -TL q om p (energy q (m : ℂ)) d :=
    fun d hd => TL_neg_p (h_m.R0 p (energy_re q m) (energy_im q m) hd)
  have en_m : ∀ d : ℂ, d.im = 0 → TL q (-om) (-(p : ℂ)) (energy q (m : ℂ)) d = -TL q (-om) p (energy q (m : ℂ)) d :=
    fun d hd => TL_neg_p (h_m.neg.R0 p (energy_re q m) (energy_im q m) hd)
  rw [toC_thermal_i_m_m_i_same_mass q om (-p) m beta, toC_thermal_i_m_m_i_same_mass q om p m beta]
  simp only [thermal.i_m_m_i_same_mass, r_0_eq, r_0_same_mass_eq, tlog_eq, tlog_same_mass_eq, tlog_zero_mass_eq, tlog_l_eq, tlog_l_same_mass_eq, tlog_l_zero_mass_eq, tlog_t_eq, tlog_t_same_mass_eq, tlog_t_zero_mass_eq, zm_r_0_eq, zm_r_0_same_mass_eq, z0_r_0_C, z0_r_0_eq, z0_tlog_eq, z0_tlog_t_eq, toC_complex, toC_real, ofR_complex, ofR_real, toC_ofR, toC_zero, toC_energy, toC_bose, map_mul, map_add, map_neg, map_sub, map_inv₀, map_div₀]
  try push_cast
  try simp only [ofReal_energy, ofReal_bose]
  simp only [e_m, en_m, R0_neg_p, PF_neg_p, Complex.sub_im, Complex.mul_im, Complex.neg_im, Complex.ofReal_im, Complex.zero_im, mul_zero, zero_mul, add_zero, sub_zero, neg_zero]
  try simp only [mul_inv, inv_neg]
  ring

theorem even_p_thermal_i_m_0_i (q : ℝ) (om : ℂ) (p : ℝ) (m : ℝ) (beta : ℝ) (h_m : InStrip om (energy q m)) (h_0 : InStrip om q) :
    thermal.i_m_0_i q om (-p) m beta = thermal.i_m_0_i q om p m beta := by
  have e_m : ∀ d : ℂ, d.im = 0 → TL q om (-(p : ℂ)) (energy q (m : ℂ)) d = -TL q om p (energy q (m : ℂ)) d :=
    fun d hd => TL_neg_p (h_m.R0 p (energy_re q m) (energy_im q m) hd)
  have en_m : ∀ d : ℂ, d.im = 0 → TL q (-om) (-(p : ℂ)) (energy q (m : ℂ)) d = -TL q (-om) p (energy q (m : ℂ)) d :=
    fun d hd => TL_neg_p (h_m.neg.R0 p (energy_re q m) (energy_im q m) hd)
  have e_0 : ∀ d : ℂ, d.im = 0 → TL q om (-(p : ℂ)) (q : ℂ) d = -TL q om p (q : ℂ) d :=
    fun d hd => TL_neg_p (h_0.R0 p (Complex.ofReal_re q) (Complex.ofReal_im q) hd)
  have en_0 : ∀ d : ℂ, d.im = 0 → TL q (-om) (-(p : ℂ)) (q : ℂ) d = -TL q (-om) p (q : ℂ) d :=
    fun d hd => TL_neg_p (h_0.neg.R0 p (Complex.ofReal_re q) (Complex.ofReal_im q) hd)
  rw [toC_thermal_i_m_0_i q om (-p) m beta, toC_thermal_i_m_0_i q om p m beta]
  simp only [thermal.i_m_0_i, r_0_eq, r_0_same_mass_eq, tlog_eq, tlog_same_mass_eq, tlog_zero_mass_eq, tlog_l_eq, tlog_l_same_mass_eq, tlog_l_zero_mass_eq, tlog_t_eq, tlog_t_same_mass_eq, tlog_t_zero_mass_eq, zm_r_0_eq, zm_r_0_same_mass_eq, z0_r_0_C, z0_r_0_eq, z0_tlog_eq, z0_tlog_t_eq, toC_complex, toC_real, ofR_complex, ofR_real, toC_ofR, toC_zero, toC_energy, toC_bose, map_mul, map_add, map_neg, map_sub, map_inv₀, map_div₀]
  try push_cast
  try simp only [ofReal_energy, ofReal_bose]
  simp only [e_m, en_m, e_0, en_0, R0_neg_p, PF_neg_p, Complex.sub_im, Complex.mul_im, Complex.neg_im, Complex.ofReal_im, Complex.zero_im, mul_zero, zero_mul, add_zero, sub_zero, neg_zero]
  try simp only [mul_inv, inv_neg]
  ring

theorem even_p_thermal_i_0_0_i (q : ℝ) (om : ℂ) (p : ℝ) (beta : ℝ) (h_0 : InStrip om q) :
    thermal.i_0_0_i q om (-p) beta = thermal.i_0_0_i q om p beta := by
  have e_0 : ∀ d : ℂ, d.im = 0 → TL q om (-(p : ℂ)) (q : ℂ) d = -TL q om p (q : ℂ) d :=
    fun d hd => TL_neg_p (h_0.R0 p (Complex.ofReal_re q) (Complex.ofReal_im q) hd)
  have en_0 : ∀ d : ℂ, d.im = 0 → TL q (-om) (-(p : ℂ)) (q : ℂ) d = -TL q (-om) p (q : ℂ) d :=
    fun d hd => TL_neg_p (h_0.neg.R0 p (Complex.ofReal_re q) (Complex.ofReal_im q) hd)
  rw [toC_thermal_i_0_0_i q om (-p) beta, toC_thermal_i_0_0_i q om p beta]
  simp only [thermal.i_0_0_i, r_0_eq, r_0_same_mass_eq, tlog_eq, tlog_same_mass_eq, tlog_zero_mass_eq, tlog_l_eq, tlog_l_same_mass_eq, tlog_l_zero_mass_eq, tlog_t_eq, tlog_t_same_mass_eq, tlog_t_zero_mass_eq, zm_r_0_eq, zm_r_0_same_mass_eq, z0_r_0_C, z0_r_0_eq, z0_tlog_eq, z0_tlog_t_eq, toC_complex, toC_real, ofR_complex, ofR_real, toC_ofR, toC_zero, toC_energy, toC_bose, map_mul, map_add, map_neg, map_sub, map_inv₀, map_div₀]
  try push_cast
  try simp only [ofReal_energy, ofReal_bose]
  simp only [e_0, en_0, R0_neg_p, PF_neg_p, Complex.sub_im, Complex.mul_im, Complex.neg_im, Complex.ofReal_im, Complex.zero_im, mul_zero, zero_mul, add_zero, sub_zero, neg_zero]
  try simp only [mul_inv, inv_neg]
  ring

theorem even_p_thermal_i_m_m_l_i (q : ℝ) (om : ℂ) (p : ℝ) (m1 : ℝ) (m2 : ℝ) (beta : ℝ) (h_m1 : InStrip om (energy q m1)) (h_m2 : InStrip om (energy q m2)) :
    thermal.i_m_m_l_i q om (-p) m1 m2 beta = thermal.i_m_m_l_i q om p m1 m2 beta := by
  have e_m1 : ∀ d : ℂ, d.im = 0 → TL q om (-(p : ℂ)) (energy q (m1 : ℂ)) d = -TL q om p (energy q (m1 : ℂ)) d :=
    fun d hd => TL_neg_p (h_m1.R0 p (energy_re q m1) (energy_im q m1) hd)
  have en_m1 : ∀ d : ℂ, d.im = 0 → TL q (-om) (-(p : ℂ)) (energy q (m1 : ℂ)) d = -TL q (-om) p (energy q (m1 : ℂ)) d :=
    fun d hd => TL_neg_p (h_m1.neg.R0 p (energy_re q m1) (energy_im q m1) hd)
  have e_m2 : ∀ d : ℂ, d.im = 0 → TL q om (-(p : ℂ)) (energy q (m2 : ℂ)) d = -TL q om p (energy q (m2 : ℂ)) d :=
    fun d hd => TL_neg_p (h_m2.R0 p (energy_re q m2) (energy_im q m2) hd)
  have en_m2 : ∀ d : ℂ, d.im = 0 → TL q (-om) (-(p : ℂ)) (energy q (m2 : ℂ)) d = -TL q (-om) p (energy q (m2 : ℂ)) d :=
    fun d hd => TL_neg_p (h_m2.neg.R0 p (energy_re q m2) (energy_im q m2) hd)
  rw [toC_thermal_i_m_m_l_i q om (-p) m1 m2 beta, toC_thermal_i_m_m_l_i q om p m1 m2 beta]
  simp only [thermal.i_m_m_l_i, r_0_eq, r_0_same_mass_eq, tlog_eq, tlog_same_mass_eq, tlog_zero_mass_eq, tlog_l_eq, tlog_l_same_mass_eq, tlog_l_zero_mass_eq, tlog_t_eq, tlog_t_same_mass_eq, tlog_t_zero_mass_eq, zm_r_0_eq, zm_r_0_same_mass_eq, z0_r_0_C, z0_r_0_eq, z0_tlog_eq, z0_tlog_t_eq, toC_complex, toC_real, ofR_complex, ofR_real, toC_ofR, toC_zero, toC_energy, toC_bose, map_mul, map_add, map_neg, map_sub, map_inv₀, map_div₀]
  try push_cast
  try simp only [ofReal_energy, ofReal_bose]
  simp only [e_m1, en_m1, e_m2, en_m2, R0_neg_p, PF_neg_p, Complex.sub_im, Complex.mul_im, Complex.neg_im, Complex.ofReal_im, Complex.zero_im, mul_zero, zero_mul, add_zero, sub_zero, neg_zero]
  try simp only [mul_inv, inv_neg]
  ring

theorem even_p_thermal_i_m_m_l_i_same_mass (q : ℝ) (om : ℂ) (p : ℝ) (m : ℝ) (beta : ℝ) (h_m : InStrip om (energy q m)) :
    thermal.i_m_m_l_i_same_mass q om (-p) m beta = thermal.i_m_m_l_i_same_mass q om p m beta := by
  have e_m : ∀ d : ℂ, d.im = 0 → TL q om (-(p : ℂ)) (energy q (m : ℂ)) d = -TL q om p (energy q (m : ℂ)) d :=
    fun d hd => TL_neg_p (h_m.R0 p (energy_re q m) (energy_im q m) hd)
  have en_m : ∀ d : ℂ, d.im = 0 → TL q (-om) (-(p : ℂ)) (energy q (m : ℂ)) d = -TL q (-om) p (energy q (m : ℂ)) d :=
    fun d hd => TL_neg_p (h_m.neg.R0 p (energy_re q m) (energy_im q m) hd)
  rw [toC_thermal_i_m_m_l_i_same_mass q om (-p) m beta, toC_thermal_i_m_m_l_i_same_mass q om p m beta]
  simp only [thermal.i_m_m_l_i_same_mass, r_0_eq, r_0_same_mass_eq, tlog_eq, tlog_same_mass_eq, tlog_zero_mass_eq, tlog_l_eq, tlog_l_same_mass_eq, tlog_l_zero_mass_eq, tlog_t_eq, tlog_t_same_mass_eq, tlog_t_zero_mass_eq, zm_r_0_eq, zm_r_0_same_mass_eq, z0_r_0_C, z0_r_0_eq, z0_tlog_eq, z0_tlog_t_eq, toC_complex, toC_real, ofR_complex, ofR_real, toC_ofR, toC_zero, toC_energy, toC_bose, map_mul, map_add, map_neg, map_sub, map_inv₀, map_div₀]
  try push_cast
  try simp only [ofReal_energy, ofReal_bose]
  simp only [e_m, en_m, R0_neg_p, PF_neg_p, Complex.sub_im, Complex.mul_im, Complex.neg_im, Complex.ofReal_im, Complex.zero_im, mul_zero, zero_mul, add_zero, sub_zero, neg_zero]
  try simp only [mul_inv, inv_neg]
  ring

theorem even_p_thermal_i_m_0_l_i (q : ℝ) (om : ℂ) (p : ℝ) (m : ℝ) (beta : ℝ) (h_m : InStrip om (energy q m)) (h_0 : InStrip om q) :
    thermal.i_m_0_l_i q om (-p) m beta = thermal.i_m_0_l_i q om p m beta := by
  have e_m : ∀ d : ℂ, d.im = 0 → TL q om (-(p : ℂ)) (energy q (m : ℂ)) d = -TL q om p (energy q (m : ℂ)) d :=
    fun d hd => TL_neg_p (h_m.R0 p (energy_re q m) (energy_im q m) hd)
  have en_m : ∀ d : ℂ, d.im = 0 → TL q (-om) (-(p : ℂ)) (energy q (m : ℂ)) d = -TL q (-om) p (energy q (m : ℂ)) d :=
    fun d hd => TL_neg_p (h_m.neg.R0 p (energy_re q m) (energy_im q m) hd)
  have e_0 : ∀ d : ℂ, d.im = 0 → TL q om (-(p : ℂ)) (q : ℂ) d = -TL q om p (q : ℂ) d :=
    fun d hd => TL_neg_p (h_0.R0 p (Complex.ofReal_re q) (Complex.ofReal_im q) hd)
  have en_0 : ∀ d : ℂ, d.im = 0 → TL q (-om) (-(p : ℂ)) (q : ℂ) d = -TL q (-om) p (q : ℂ) d :=
    fun d hd => TL_neg_p (h_0.neg.R0 p (Complex.ofReal_re q) (Complex.ofReal_im q) hd)
  rw [toC_thermal_i_m_0_l_i q om (-p) m beta, toC_thermal_i_m_0_l_i q om p m beta]
  simp only [thermal.i_m_0_l_i, r_0_eq, r_0_same_mass_eq, tlog_eq, tlog_same_mass_eq, tlog_zero_mass_eq, tlog_l_eq, tlog_l_same_mass_eq, tlog_l_zero_mass_eq, tlog_t_eq, tlog_t_same_mass_eq, tlog_t_zero_mass_eq, zm_r_0_eq, zm_r_0_same_mass_eq, z0_r_0_C, z0_r_0_eq, z0_tlog_eq, z0_tlog_t_eq, toC_complex, toC_real, ofR_complex, ofR_real, toC_ofR, toC_zero, toC_energy, toC_bose, map_mul, map_add, map_neg, map_sub, map_inv₀, map_div₀]
  try push_cast
  try simp only [ofReal_energy, ofReal_bose]
  simp only [e_m, en_m, e_0, en_0, R0_neg_p, PF_neg_p, Complex.sub_im, Complex.mul_im, Complex.neg_im, Complex.ofReal_im, Complex.zero_im, mul_zero, zero_mul, add_zero, sub_zero, neg_zero]
  try simp only [mul_inv, inv_neg]
  ring

theorem even_p_thermal_i_0_0_l_i (q : ℝ) (om : ℂ) (p : ℝ) (beta : ℝ) (h_0 : InStrip om q) :
    thermal.i_0_0_l_i q om (-p) beta = thermal.i_0_0_l_i q om p beta := by
  have e_0 : ∀ d : ℂ, d.im = 0 → TL q om (-(p : ℂ)) (q : ℂ) d = -TL q om p (q : ℂ) d :=
    fun d hd => TL_neg_p (h_0.R0 p (Complex.ofReal_re q) (Complex.ofReal_im q) hd)
  have en_0 : ∀ d : ℂ, d.im = 0 → TL q (-om) (-(p : ℂ)) (q : ℂ) d = -TL q (-om) p (q : ℂ) d :=
    fun d hd => TL_neg_p (h_0.neg.R0 p (Complex.ofReal_re q) (Complex.ofReal_im q) hd)
  rw [toC_thermal_i_0_0_l_i q om (-p) beta, toC_thermal_i_0_0_l_i q om p beta]
  simp only [thermal.i_0_0_l_i, r_0_eq, r_0_same_mass_eq, tlog_eq, tlog_same_mass_eq, tlog_zero_mass_eq, tlog_l_eq, tlog_l_same_mass_eq, tlog_l_zero_mass_eq, tlog_t_eq, tlog_t_same_mass_eq, tlog_t_zero_mass_eq, zm_r_0_eq, zm_r_0_same_mass_eq, z0_r_0_C, z0_r_0_eq, z0_tlog_eq, z0_tlog_t_eq, toC_complex, toC_real, ofR_complex, ofR_real, toC_ofR, toC_zero, toC_energy, toC_bose, map_mul, map_add, map_neg, map_sub, map_inv₀, map_div₀]
  try push_cast
  try simp only [ofReal_energy, ofReal_bose]
  simp only [e_0, en_0, R0_neg_p, PF_neg_p, Complex.sub_im, Complex.mul_im, Complex.neg_im, Complex.ofReal_im, Complex.zero_im, mul_zero, zero_mul, add_zero, sub_zero, neg_zero]
  try simp only [mul_inv, inv_neg]
  ring

theorem even_p_thermal_i_m_m_t_i (q : ℝ) (om : ℂ) (p : ℝ) (m1 : ℝ) (m2 : ℝ) (beta : ℝ) (h_m1 : InStrip om (energy q m1)) (h_m2 : InStrip om (energy q m2)) :
    thermal.i_m_m_t_i q om (-p) m1 m2 beta = thermal.i_m_m_t_i q om p m1 m2 beta := by
  have e_m1 : ∀ d : ℂ, d.im = 0 → TL q om (-(p : ℂ)) (energy q (m1 : ℂ)) d = -TL q om p (energy q (m1 : ℂ)) d :=
    fun d hd => TL_neg_p (h_m1.R0 p (energy_re q m1) (energy_im q m1) hd)
  have en_m1 : ∀ d : ℂ, d.im = 0 → TL q (-om) (-(p : ℂ)) (energy q (m1 : ℂ)) d = -TL q (-om) p (energy q (m1 : ℂ)) d :=
    fun d hd => TL_neg_p (h_m1.neg.R0 p (energy_re q m1) (energy_im q m1) hd)
  have e_m2 : ∀ d : ℂ, d.im = 0 → TL q om (-(p : ℂ)) (energy q (m2 : ℂ)) d = -TL q om p (energy q (m2 : ℂ)) d :=
    fun d hd => TL_neg_p (h_m2.R0 p (energy_re q m2) (energy_im q m2) hd)
  have en_m2 : ∀ d : ℂ, d.im = 0 → TL q (-om) (-(p : ℂ)) (energy q (m2 : ℂ)) d = -TL q (-om) p (energy q (m2 : ℂ)) d :=
    fun d hd => TL_neg_p (h_m2.neg.R0 p (energy_re q m2) (energy_im q m2) hd)
  rw [toC_thermal_i_m_m_t_i q om (-p) m1 m2 beta, toC_thermal_i_m_m_t_i q om p m1 m2 beta]
  simp only [thermal.i_m_m_t_i, r_0_eq, r_0_same_mass_eq, tlog_eq, tlog_same_mass_eq, tlog_zero_mass_eq, tlog_l_eq, tlog_l_same_mass_eq, tlog_l_zero_mass_eq, tlog_t_eq, tlog_t_same_mass_eq, tlog_t_zero_mass_eq, zm_r_0_eq, zm_r_0_same_mass_eq, z0_r_0_C, z0_r_0_eq, z0_tlog_eq, z0_tlog_t_eq, toC_complex, toC_real, ofR_complex, ofR_real, toC_ofR, toC_zero, toC_energy, toC_bose, map_mul, map_add, map_neg, map_sub, map_inv₀, map_div₀]
  try push_cast
  try simp only [ofReal_energy, ofReal_bose]
  simp only [e_m1, en_m1, e_m2, en_m2, R0_neg_p, PF_neg_p, Complex.sub_im, Complex.mul_im, Complex.neg_im, Complex.ofReal_im, Complex.zero_im, mul_zero, zero_mul, add_zero, sub_zero, neg_zero]
  try simp only [mul_inv, inv_neg]
  ring

theorem even_p_thermal_i_m_m_t_i_same_mass (q : ℝ) (om : ℂ) (p : ℝ) (m : ℝ) (beta : ℝ) (h_m : InStrip om (energy q m)) :
    thermal.i_m_m_t_i_same_mass q om (-p) m beta = thermal.i_m_m_t_i_same_mass q om p m beta := by
  have e_m : ∀ d : ℂ, d.im = 0 → TL q om (-(p : ℂ)) (energy q (m : ℂ)) d = -TL q om p (energy q (m : ℂ)) d :=
    fun d hd => TL_neg_p (h_m.R0 p (energy_re q m) (energy_im q m) hd)
  have en_m : ∀ d : ℂ, d.im = 0 → TL q (-om) (-(p : ℂ)) (energy q (m : ℂ)) d = -TL q (-om) p (energy q (m : ℂ)) d :=
    fun d hd => TL_neg_p (h_m.neg.R0 p (energy_re q m) (energy_im q m) hd)
  rw [toC_thermal_i_m_m_t_i_same_mass q om (-p) m beta, toC_thermal_i_m_m_t_i_same_mass q om p m beta]
  simp only [thermal.i_m_m_t_i_same_mass, r_0_eq, r_0_same_mass_eq, tlog_eq, tlog_same_mass_eq, tlog_zero_mass_eq, tlog_l_eq, tlog_l_same_mass_eq, tlog_l_zero_mass_eq, tlog_t_eq, tlog_t_same_mass_eq, tlog_t_zero_mass_eq, zm_r_0_eq, zm_r_0_same_mass_eq, z0_r_0_C, z0_r_0_eq, z0_tlog_eq, z0_tlog_t_eq, toC_complex, toC_real, ofR_complex, ofR_real, toC_ofR, toC_zero, toC_energy, toC_bose, map_mul, map_add, map_neg, map_sub, map_inv₀, map_div₀]
  try push_cast
  try simp only [ofReal_energy, ofReal_bose]
  simp only [e_m, en_m, R0_neg_p, PF_neg_p, Complex.sub_im, Complex.mul_im, Complex.neg_im, Complex.ofReal_im, Complex.zero_im, mul_zero, zero_mul, add_zero, sub_zero, neg_zero]
  try simp only [mul_inv, inv_neg]
  ring

theorem even_p_thermal_i_m_0_t_i (q : ℝ) (om : ℂ) (p : ℝ) (m : ℝ) (beta : ℝ) (h_m : InStrip om (energy q m)) (h_0 : InStrip om q) :
    thermal.i_m_0_t_i q om (-p) m beta = thermal.i_m_0_t_i q om p m beta := by
  have e_m : ∀ d : ℂ, d.im = 0 → TL q om (-(p : ℂ)) (energy q (m : ℂ)) d = -TL q om p (energy q (m : ℂ)) d :=
    fun d hd => TL_neg_p (h_m.R0 p (energy_re q m) (energy_im q m) hd)
  have en_m : ∀ d : ℂ, d.im = 0 → TL q (-om) (-(p : ℂ)) (energy q (m : ℂ)) d = -TL q (-om) p (energy q (m : ℂ)) d :=
    fun d hd => TL_neg_p (h_m.neg.R0 p (energy_re q m) (energy_im q m) hd)
  have e_0 : ∀ d : ℂ, d.im = 0 → TL q om (-(p : ℂ)) (q : ℂ) d = -TL q om p (q : ℂ) d :=
    fun d hd => TL_neg_p (h_0.R0 p (Complex.ofReal_re q) (Complex.ofReal_im q) hd)
  have en_0 : ∀ d : ℂ, d.im = 0 → TL q (-om) (-(p : ℂ)) (q : ℂ) d = -TL q (-om) p (q : ℂ) d :=
    fun d hd => TL_neg_p (h_0.neg.R0 p (Complex.ofReal_re q) (Complex.ofReal_im q) hd)
  rw [toC_thermal_i_m_0_t_i q om (-p) m beta, toC_thermal_i_m_0_t_i q om p m beta]
  simp only [thermal.i_m_0_t_i, r_0_eq, r_0_same_mass_eq, tlog_eq, tlog_same_mass_eq, tlog_zero_mass_eq, tlog_l_eq, tlog_l_same_mass_eq, tlog_l_zero_mass_eq, tlog_t_eq, tlog_t_same_mass_eq, tlog_t_zero_mass_eq, zm_r_0_eq, zm_r_0_same_mass_eq, z0_r_0_C, z0_r_0_eq, z0_tlog_eq, z0_tlog_t_eq, toC_complex, toC_real, ofR_complex, ofR_real, toC_ofR, toC_zero, toC_energy, toC_bose, map_mul, map_add, map_neg, map_sub, map_inv₀, map_div₀]
  try push_cast
  try simp only [ofReal_energy, ofReal_bose]
  simp only [e_m, en_m, e_0, en_0, R0_neg_p, PF_neg_p, Complex.sub_im, Complex.mul_im, Complex.neg_im, Complex.ofReal_im, Complex.zero_im, mul_zero, zero_mul, add_zero, sub_zero, neg_zero]
  try simp only [mul_inv, inv_neg]
  ring

theorem even_p_thermal_i_0_0_t_i (q : ℝ) (om : ℂ) (p : ℝ) (beta : ℝ) (h_0 : InStrip om q) :
    thermal.i_0_0_t_i q om (-p) beta = thermal.i_0_0_t_i q om p beta := by
  have e_0 : ∀ d : ℂ, d.im = 0 → TL q om (-(p : ℂ)) (q : ℂ) d = -TL q om p (q : ℂ) d :=
    fun d hd => TL_neg_p (h_0.R0 p (Complex.ofReal_re q) (Complex.ofReal_im q) hd)
  have en_0 : ∀ d : ℂ, d.im = 0 → TL q (-om) (-(p : ℂ)) (q : ℂ) d = -TL q (-om) p (q : ℂ) d :=
    fun d hd => TL_neg_p (h_0.neg.R0 p (Complex.ofReal_re q) (Complex.ofReal_im q) hd)
  rw [toC_thermal_i_0_0_t_i q om (-p) beta, toC_thermal_i_0_0_t_i q om p beta]
  simp only [thermal.i_0_0_t_i, r_0_eq, r_0_same_mass_eq, tlog_eq, tlog_same_mass_eq, tlog_zero_mass_eq, tlog_l_eq, tlog_l_same_mass_eq, tlog_l_zero_mass_eq, tlog_t_eq, tlog_t_same_mass_eq, tlog_t_zero_mass_eq, zm_r_0_eq, zm_r_0_same_mass_eq, z0_r_0_C, z0_r_0_eq, z0_tlog_eq, z0_tlog_t_eq, toC_complex, toC_real, ofR_complex, ofR_real, toC_ofR, toC_zero, toC_energy, toC_bose, map_mul, map_add, map_neg, map_sub, map_inv₀, map_div₀]
  try push_cast
  try simp only [ofReal_energy, ofReal_bose]
  simp only [e_0, en_0, R0_neg_p, PF_neg_p, Complex.sub_im, Complex.mul_im, Complex.neg_im, Complex.ofReal_im, Complex.zero_im, mul_zero, zero_mul, add_zero, sub_zero, neg_zero]
  try simp only [mul_inv, inv_neg]
  ring

theorem even_p_thermal_d_i_m_m_i (q : ℝ) (om : ℂ) (p : ℝ) (m1 : ℝ) (m2 : ℝ) (beta : ℝ) (h_m1 : InStrip om (energy q m1)) (h_m2 : InStrip om (energy q m2)) :
    thermal.d_i_m_m_i q om (-p) m1 m2 beta = thermal.d_i_m_m_i q om p m1 m2 beta := by
  have e_m1 : ∀ d : ℂ, d.im = 0 → TL q om (-(p : ℂ)) (energy q (m1 : ℂ)) d = -TL q om p (energy q (m1 : ℂ)) d :=
    fun d hd => TL_neg_p (h_m1.R0 p (energy_re q m1) (energy_im q m1) hd)
  have en_m1 : ∀ d : ℂ, d.im = 0 → TL q (-om) (-(p : ℂ)) (energy q (m1 : ℂ)) d = -TL q (-om) p (energy q (m1 : ℂ)) d :=
    fun d hd => TL_neg_p (h_m1.neg.R0 p (energy_re q m1) (energy_im q m1) hd)
  have e_m2 : ∀ d : ℂ, d.im = 0 → TL q om (-(p : ℂ)) (energy q (m2 : ℂ)) d = -TL q om p (energy q (m2 : ℂ)) d :=
    fun d hd => TL_neg_p (h_m2.R0 p (energy_re q m2) (energy_im q m2) hd)
  have en_m2 : ∀ d : ℂ, d.im = 0 → TL q (-om) (-(p : ℂ)) (energy q (m2 : ℂ)) d = -TL q (-om) p (energy q (m2 : ℂ)) d :=
    fun d hd => TL_neg_p (h_m2.neg.R0 p (energy_re q m2) (energy_im q m2) hd)
  rw [toC_thermal_d_i_m_m_i q om (-p) m1 m2 beta, toC_thermal_d_i_m_m_i q om p m1 m2 beta]
  simp only [thermal.d_i_m_m_i, r_0_eq, r_0_same_mass_eq, tlog_eq, tlog_same_mass_eq, tlog_zero_mass_eq, tlog_l_eq, tlog_l_same_mass_eq, tlog_l_zero_mass_eq, tlog_t_eq, tlog_t_same_mass_eq, tlog_t_zero_mass_eq, zm_r_0_eq, zm_r_0_same_mass_eq, z0_r_0_C, z0_r_0_eq, z0_tlog_eq, z0_tlog_t_eq, toC_complex, toC_real, ofR_complex, ofR_real, toC_ofR, toC_zero, toC_energy, toC_bose, map_mul, map_add, map_neg, map_sub, map_inv₀, map_div₀]
  try push_cast
  try simp only [ofReal_energy, ofReal_bose]
  simp only [e_m1, en_m1, e_m2, en_m2, R0_neg_p, PF_neg_p, Complex.sub_im, Complex.mul_im, Complex.neg_im, Complex.ofReal_im, Complex.zero_im, mul_zero, zero_mul, add_zero, sub_zero, neg_zero]
  try simp only [mul_inv, inv_neg]
  ring

theorem even_p_thermal_d_i_m_m_i_same_mass (q : ℝ) (om : ℂ) (p : ℝ) (m : ℝ) (beta : ℝ) (h_m : InStrip om (energy q m)) :
    thermal.d_i_m_m_i_same_mass q om (-p) m beta = thermal.d_i_m_m_i_same_mass q om p m beta := by
  have e_m : ∀ d : ℂ, d.im = 0 → TL q om (-(p : ℂ)) (energy q (m : ℂ)) d = -TL q om p (energy q (m : ℂ)) d :=
    fun d hd => TL_neg_p (h_m.R0 p (energy_re q m) (energy_im q m) hd)
  have en_m : ∀ d : ℂ, d.im = 0 → TL q (-om) (-(p : ℂ)) (energy q (m : ℂ)) d = -TL q (-om) p (energy q (m : ℂ)) d :=
    fun d hd => TL_neg_p (h_m.neg.R0 p (energy_re q m) (energy_im q m) hd)
  rw [toC_thermal_d_i_m_m_i_same_mass q om (-p) m beta, toC_thermal_d_i_m_m_i_same_mass q om p m beta]
  simp only [thermal.d_i_m_m_i_same_mass, r_0_eq, r_0_same_mass_eq, tlog_eq, tlog_same_mass_eq, tlog_zero_mass_eq, tlog_l_eq, tlog_l_same_mass_eq, tlog_l_zero_mass_eq, tlog_t_eq, tlog_t_same_mass_eq, tlog_t_zero_mass_eq, zm_r_0_eq, zm_r_0_same_mass_eq, z0_r_0_C, z0_r_0_eq, z0_tlog_eq, z0_tlog_t_eq, toC_complex, toC_real, ofR_complex, ofR_real, toC_ofR, toC_zero, toC_energy, toC_bose, map_mul, map_add, map_neg, map_sub, map_inv₀, map_div₀]
  try push_cast
  try simp only [ofReal_energy, ofReal_bose]
  simp only [e_m, en_m, R0_neg_p, PF_neg_p, Complex.sub_im, Complex.mul_im, Complex.neg_im, Complex.ofReal_im, Complex.zero_im, mul_zero, zero_mul, add_zero, sub_zero, neg_zero]
  try simp only [mul_inv, inv_neg]
  ring

theorem even_p_thermal_d_i_m_0_i (q : ℝ) (om : ℂ) (p : ℝ) (m : ℝ) (beta : ℝ) (h_m : InStrip om (energy q m)) (h_0 : InStrip om q) :
    thermal.d_i_m_0_i q om (-p) m beta = thermal.d_i_m_0_i q om p m beta := by
  have e_m : ∀ d : ℂ, d.im = 0 → TL q om (-(p : ℂ)) (energy q (m : ℂ)) d = -TL q om p (energy q (m : ℂ)) d :=
    fun d hd => TL_neg_p (h_m.R0 p (energy_re q m) (energy_im q m) hd)
  have en_m : ∀ d : ℂ, d.im = 0 → TL q (-om) (-(p : ℂ)) (energy q (m : ℂ)) d = -TL q (-om) p (energy q (m : ℂ)) d :=
    fun d hd => TL_neg_p (h_m.neg.R0 p (energy_re q m) (energy_im q m) hd)
  have e_0 : ∀ d : ℂ, d.im = 0 → TL q om (-(p : ℂ)) (q : ℂ) d = -TL q om p (q : ℂ) d :=
    fun d hd => TL_neg_p (h_0.R0 p (Complex.ofReal_re q) (Complex.ofReal_im q) hd)
  have en_0 : ∀ d : ℂ, d.im = 0 → TL q (-om) (-(p : ℂ)) (q : ℂ) d = -TL q (-om) p (q : ℂ) d :=
    fun d hd => TL_neg_p (h_0.neg.R0 p (Complex.ofReal_re q) (Complex.ofReal_im q) hd)
  rw [toC_thermal_d_i_m_0_i q om (-p) m beta, toC_thermal_d_i_m_0_i q om p m beta]
  simp only [thermal.d_i_m_0_i, r_0_eq, r_0_same_mass_eq, tlog_eq, tlog_same_mass_eq, tlog_zero_mass_eq, tlog_l_eq, tlog_l_same_mass_eq, tlog_l_zero_mass_eq, tlog_t_eq, tlog_t_same_mass_eq, tlog_t_zero_mass_eq, zm_r_0_eq, zm_r_0_same_mass_eq, z0_r_0_C, z0_r_0_eq, z0_tlog_eq, z0_tlog_t_eq, toC_complex, toC_real, ofR_complex, ofR_real, toC_ofR, toC_zero, toC_energy, toC_bose, map_mul, map_add, map_neg, map_sub, map_inv₀, map_div₀]
  try push_cast
  try simp only [ofReal_energy, ofReal_bose]
  simp only [e_m, en_m, e_0, en_0, R0_neg_p, PF_neg_p, Complex.sub_im, Complex.mul_im, Complex.neg_im, Complex.ofReal_im, Complex.zero_im, mul_zero, zero_mul, add_zero, sub_zero, neg_zero]
  try simp only [mul_inv, inv_neg]
  ring

theorem even_p_thermal_d_i_0_0_i (q : ℝ) (om : ℂ) (p : ℝ) (beta : ℝ) (h_0 : InStrip om q) :
    thermal.d_i_0_0_i q om (-p) beta = thermal.d_i_0_0_i q om p beta := by
  have e_0 : ∀ d : ℂ, d.im = 0 → TL q om (-(p : ℂ)) (q : ℂ) d = -TL q om p (q : ℂ) d :=
    fun d hd => TL_neg_p (h_0.R0 p (Complex.ofReal_re q) (Complex.ofReal_im q) hd)
  have en_0 : ∀ d : ℂ, d.im = 0 → TL q (-om) (-(p : ℂ)) (q : ℂ) d = -TL q (-om) p (q : ℂ) d :=
    fun d hd => TL_neg_p (h_0.neg.R0 p (Complex.ofReal_re q) (Complex.ofReal_im q) hd)
  rw [toC_thermal_d_i_0_0_i q om (-p) beta, toC_thermal_d_i_0_0_i q om p beta]
  simp only [thermal.d_i_0_0_i, r_0_eq, r_0_same_mass_eq, tlog_eq, tlog_same_mass_eq, tlog_zero_mass_eq, tlog_l_eq, tlog_l_same_mass_eq, tlog_l_zero_mass_eq, tlog_t_eq, tlog_t_same_mass_eq, tlog_t_zero_mass_eq, zm_r_0_eq, zm_r_0_same_mass_eq, z0_r_0_C, z0_r_0_eq, z0_tlog_eq, z0_tlog_t_eq, toC_complex, toC_real, ofR_complex, ofR_real, toC_ofR, toC_zero, toC_energy, toC_bose, map_mul, map_add, map_neg, map_sub, map_inv₀, map_div₀]
  try push_cast
  try simp only [ofReal_energy, ofReal_bose]
  simp only [e_0, en_0, R0_neg_p, PF_neg_p, Complex.sub_im, Complex.mul_im, Complex.neg_im, Complex.ofReal_im, Complex.zero_im, mul_zero, zero_mul, add_zero, sub_zero, neg_zero]
  try simp only [mul_inv, inv_neg]
  ring

theorem even_p_thermal_d_i_m_m_l_i (q : ℝ) (om : ℂ) (p : ℝ) (m1 : ℝ) (m2 : ℝ) (beta : ℝ) (h_m1 : InStrip om (energy q m1)) (h_m2 : InStrip om (energy q m2)) :
    thermal.d_i_m_m_l_i q om (-p) m1 m2 beta = thermal.d_i_m_m_l_i q om p m1 m2 beta := by
  have e_m1 : ∀ d : ℂ, d.im = 0 → TL q om (-(p : ℂ)) (energy q (m1 : ℂ)) d = -TL q om p (energy q (m1 : ℂ)) d :=
    fun d hd => TL_neg_p (h_m1.R0 p (energy_re q m1) (energy_im q m1) hd)
  have en_m1 : ∀ d : ℂ, d.im = 0 → TL q (-om) (-(p : ℂ)) (energy q (m1 : ℂ)) d = -TL q (-om) p (energy q (m1 : ℂ)) d :=
    fun d hd => TL_neg_p (h_m1.neg.R0 p (energy_re q m1) (energy_im q m1) hd)
  have e_m2 : ∀ d : ℂ, d.im = 0 → TL q om (-(p : ℂ)) (energy q (m2 : ℂ)) d = -TL q om p (energy q (m2 : ℂ)) d :=
    fun d hd => TL_neg_p (h_m2.R0 p (energy_re q m2) (energy_im q m2) hd)
  have en_m2 : ∀ d : ℂ, d.im = 0 → TL q (-om) (-(p : ℂ)) (energy q (m2 : ℂ)) d = -TL q (-om) p (energy q (m2 : ℂ)) d :=
    fun d hd => TL_neg_p (h_m2.neg.R0 p (energy_re q m2) (energy_im q m2) hd)
  rw [toC_thermal_d_i_m_m_l_i q om (-p) m1 m2 beta, toC_thermal_d_i_m_m_l_i q om p m1 m2 beta]
  simp only [thermal.d_i_m_m_l_i, r_0_eq, r_0_same_mass_eq, tlog_eq, tlog_same_mass_eq, tlog_zero_mass_eq, tlog_l_eq, tlog_l_same_mass_eq, tlog_l_zero_mass_eq, tlog_t_eq, tlog_t_same_mass_eq, tlog_t_zero_mass_eq, zm_r_0_eq, zm_r_0_same_mass_eq, z0_r_0_C, z0_r_0_eq, z0_tlog_eq, z0_tlog_t_eq, toC_complex, toC_real, ofR_complex, ofR_real, toC_ofR, toC_zero, toC_energy, toC_bose, map_mul, map_add, map_neg, map_sub, map_inv₀, map_div₀]
  try push_cast
  try simp only [ofReal_energy, ofReal_bose]
  simp only [e_m1, en_m1, e_m2, en_m2, R0_neg_p, PF_neg_p, Complex.sub_im, Complex.mul_im, Complex.neg_im, Complex.ofReal_im, Complex.zero_im, mul_zero, zero_mul, add_zero, sub_zero, neg_zero]
  try simp only [mul_inv, inv_neg]
  ring

theorem even_p_thermal_d_i_m_m_l_i_same_mass (q : ℝ) (om : ℂ) (p : ℝ) (m : ℝ) (beta : ℝ) (h_m : InStrip om (energy q m)) :
    thermal.d_i_m_m_l_i_same_mass q om (-p) m beta = thermal.d_i_m_m_l_i_same_mass q om p m beta := by
  have e_m : ∀ d : ℂ, d.im = 0 → TL q om (-(p : ℂ)) (energy q (m : ℂ)) d = -TL q om p (energy q (m : ℂ)) d :=
    fun d hd => TL_neg_p (h_m.R0 p (energy_re q m) (energy_im q m) hd)
  have en_m : ∀ d : ℂ, d.im = 0 → TL q (-om) (-(p : ℂ)) (energy q (m : ℂ)) d = -TL q (-om) p (energy q (m : ℂ)) d :=
    fun d hd => TL_neg_p (h_m.neg.R0 p (energy_re q m) (energy_im q m) hd)
  rw [toC_thermal_d_i_m_m_l_i_same_mass q om (-p) m beta, toC_thermal_d_i_m_m_l_i_same_mass q om p m beta]
  simp only [thermal.d_i_m_m_l_i_same_mass, r_0_eq, r_0_same_mass_eq, tlog_eq, tlog_same_mass_eq, tlog_zero_mass_eq, tlog_l_eq, tlog_l_same_mass_eq, tlog_l_zero_mass_eq, tlog_t_eq, tlog_t_same_mass_eq, tlog_t_zero_mass_eq, zm_r_0_eq, zm_r_0_same_mass_eq, z0_r_0_C, z0_r_0_eq, z0_tlog_eq, z0_tlog_t_eq, toC_complex, toC_real, ofR_complex, ofR_real, toC_ofR, toC_zero, toC_energy, toC_bose, map_mul, map_add, map_neg, map_sub, map_inv₀, map_div₀]
  try push_cast
  try simp only [ofReal_energy, ofReal_bose]
  simp only [e_m, en_m, R0_neg_p, PF_neg_p, Complex.sub_im, Complex.mul_im, Complex.neg_im, Complex.ofReal_im, Complex.zero_im, mul_zero, zero_mul, add_zero, sub_zero, neg_zero]
  try simp only [mul_inv, inv_neg]
  ring

theorem even_p_thermal_d_i_m_0_l_i (q : ℝ) (om : ℂ) (p : ℝ) (m : ℝ) (beta : ℝ) (h_m : InStrip om (energy q m)) (h_0 : InStrip om q) :
    thermal.d_i_m_0_l_i q om (-p) m beta = thermal.d_i_m_0_l_i q om p m beta := by
  have e_m : ∀ d : ℂ, d.im = 0 → TL q om (-(p : ℂ)) (energy q (m : ℂ)) d = -TL q om p (energy q (m : ℂ)) d :=
    fun d hd => TL_neg_p (h_m.R0 p (energy_re q m) (energy_im q m) hd)
  have en_m : ∀ d : ℂ, d.im = 0 → TL q (-om) (-(p : ℂ)) (energy q (m : ℂ)) d = -TL q (-om) p (energy q (m : ℂ)) d :=
    fun d hd => TL_neg_p (h_m.neg.R0 p (energy_re q m) (energy_im q m) hd)
  have e_0 : ∀ d : ℂ, d.im = 0 → TL q om (-(p : ℂ)) (q : ℂ) d = -TL q om p (q : ℂ) d :=
    fun d hd => TL_neg_p (h_0.R0 p (Complex.ofReal_re q) (Complex.ofReal_im q) hd)
  have en_0 : ∀ d : ℂ, d.im = 0 → TL q (-om) (-(p : ℂ)) (q : ℂ) d = -TL q (-om) p (q : ℂ) d :=
    fun d hd => TL_neg_p (h_0.neg.R0 p (Complex.ofReal_re q) (Complex.ofReal_im q) hd)
  rw [toC_thermal_d_i_m_0_l_i q om (-p) m beta, toC_thermal_d_i_m_0_l_i q om p m beta]
  simp only [thermal.d_i_m_0_l_i, r_0_eq, r_0_same_mass_eq, tlog_eq, tlog_same_mass_eq, tlog_zero_mass_eq, tlog_l_eq, tlog_l_same_mass_eq, tlog_l_zero_mass_eq, tlog_t_eq, tlog_t_same_mass_eq, tlog_t_zero_mass_eq, zm_r_0_eq, zm_r_0_same_mass_eq, z0_r_0_C, z0_r_0_eq, z0_tlog_eq, z0_tlog_t_eq, toC_complex, toC_real, ofR_complex, ofR_real, toC_ofR, toC_zero, toC_energy, toC_bose, map_mul, map_add, map_neg, map_sub, map_inv₀, map_div₀]
  try push_cast
  try simp only [ofReal_energy, ofReal_bose]
  simp only [e_m, en_m, e_0, en_0, R0_neg_p, PF_neg_p, Complex.sub_im, Complex.mul_im, Complex.neg_im, Complex.ofReal_im, Complex.zero_im, mul_zero, zero_mul, add_zero, sub_zero, neg_zero]
  try simp only [mul_inv, inv_neg]
  ring

theorem even_p_thermal_d_i_0_0_l_i (q : ℝ) (om : ℂ) (p : ℝ) (beta : ℝ) (h_0 : InStrip om q) :
    thermal.d_i_0_0_l_i q om (-p) beta = thermal.d_i_0_0_l_i q om p beta := by
  have e_0 : ∀ d : ℂ, d.im = 0 → TL q om (-(p : ℂ)) (q : ℂ) d = -TL q om p (q : ℂ) d :=
    fun d hd => TL_neg_p (h_0.R0 p (Complex.ofReal_re q) (Complex.ofReal_im q) hd)
  have en_0 : ∀ d : ℂ, d.im = 0 → TL q (-om) (-(p : ℂ)) (q : ℂ) d = -TL q (-om) p (q : ℂ) d :=
    fun d hd => TL_neg_p (h_0.neg.R0 p (Complex.ofReal_re q) (Complex.ofReal_im q) hd)
  rw [toC_thermal_d_i_0_0_l_i q om (-p) beta, toC_thermal_d_i_0_0_l_i q om p beta]
  simp only [thermal.d_i_0_0_l_i, r_0_eq, r_0_same_mass_eq, tlog_eq, tlog_same_mass_eq, tlog_zero_mass_eq, tlog_l_eq, tlog_l_same_mass_eq, tlog_l_zero_mass_eq, tlog_t_eq, tlog_t_same_mass_eq, tlog_t_zero_mass_eq, zm_r_0_eq, zm_r_0_same_mass_eq, z0_r_0_C, z0_r_0_eq, z0_tlog_eq, z0_tlog_t_eq, toC_complex, toC_real, ofR_complex, ofR_real, toC_ofR, toC_zero, toC_energy, toC_bose, map_mul, map_add, map_neg, map_sub, map_inv₀, map_div₀]
  try push_cast
  try simp only [ofReal_energy, ofReal_bose]
  simp only [e_0, en_0, R0_neg_p, PF_neg_p, Complex.sub_im, Complex.mul_im, Complex.neg_im, Complex.ofReal_im, Complex.zero_im, mul_zero, zero_mul, add_zero, sub_zero, neg_zero]
  try simp only [mul_inv, inv_neg]
  ring

theorem even_p_thermal_d_i_m_m_t_i (q : ℝ) (om : ℂ) (p : ℝ) (m1 : ℝ) (m2 : ℝ) (beta : ℝ) (h_m1 : InStrip om (energy q m1)) (h_m2 : InStrip om (energy q m2)) :
    thermal.d_i_m_m_t_i q om (-p) m1 m2 beta = thermal.d_i_m_m_t_i q om p m1 m2 beta := by
  have e_m1 : ∀ d : ℂ, d.im = 0 → TL q om (-(p : ℂ)) (energy q (m1 : ℂ)) d = -TL q om p (energy q (m1 : ℂ)) d :=
    fun d hd => TL_neg_p (h_m1.R0 p (energy_re q m1) (energy_im q m1) hd)
  have en_m1 : ∀ d : ℂ, d.im = 0 → TL q (-om) (-(p : ℂ)) (energy q (m1 : ℂ)) d = -TL q (-om) p (energy q (m1 : ℂ)) d :=
    fun d hd => TL_neg_p (h_m1.neg.R0 p (energy_re q m1) (energy_im q m1) hd)
  have e_m2 : ∀ d : ℂ, d.im = 0 → TL q om (-(p : ℂ)) (energy q (m2 : ℂ)) d = -TL q om p (energy q (m2 : ℂ)) d :=
    fun d hd => TL_neg_p (h_m2.R0 p (energy_re q m2) (energy_im q m2) hd)
  have en_m2 : ∀ d : ℂ, d.im = 0 → TL q (-om) (-(p : ℂ)) (energy q (m2 : ℂ)) d = -TL q (-om) p (energy q (m2 : ℂ)) d :=
    fun d hd => TL_neg_p (h_m2.neg.R0 p (energy_re q m2) (energy_im q m2) hd)
  rw [toC_thermal_d_i_m_m_t_i q om (-p) m1 m2 beta, toC_thermal_d_i_m_m_t_i q om p m1 m2 beta]
  simp only [thermal.d_i_m_m_t_i, r_0_eq, r_0_same_mass_eq, tlog_eq, tlog_same_mass_eq, tlog_zero_mass_eq, tlog_l_eq, tlog_l_same_mass_eq, tlog_l_zero_mass_eq, tlog_t_eq, tlog_t_same_mass_eq, tlog_t_zero_mass_eq, zm_r_0_eq, zm_r_0_same_mass_eq, z0_r_0_C, z0_r_0_eq, z0_tlog_eq, z0_tlog_t_eq, toC_complex, toC_real, ofR_complex, ofR_real, toC_ofR, toC_zero, toC_energy, toC_bose, map_mul, map_add, map_neg, map_sub, map_inv₀, map_div₀]
  try push_cast
  try simp only [ofReal_energy, ofReal_bose]
  simp only [e_m1, en_m1, e_m2, en_m2, R0_neg_p, PF_neg_p, Complex.sub_im, Complex.mul_im, Complex.neg_im, Complex.ofReal_im, Complex.zero_im, mul_zero, zero_mul, add_zero, sub_zero, neg_zero]
  try simp only [mul_inv, inv_neg]
  ring

theorem even_p_thermal_d_i_m_m_t_i_same_mass (q : ℝ) (om : ℂ) (p : ℝ) (m : ℝ) (beta : ℝ) (h_m : InStrip om (energy q m)) :
    thermal.d_i_m_m_t_i_same_mass q om (-p) m beta = thermal.d_i_m_m_t_i_same_mass q om p m beta := by
  have e_m : ∀ d : ℂ, d.im = 0 → TL q om (-(p : ℂ)) (energy q (m : ℂ)) d = -TL q om p (energy q (m : ℂ)) d :=
    fun d hd => TL_neg_p (h_m.R0 p (energy_re q m) (energy_im q m) hd)
  have en_m : ∀ d : ℂ, d.im = 0 → TL q (-om) (-(p : ℂ)) (energy q (m : ℂ)) d = -TL q (-om) p (energy q (m : ℂ)) d :=
    fun d hd => TL_neg_p (h_m.neg.R0 p (energy_re q m) (energy_im q m) hd)
  rw [toC_thermal_d_i_m_m_t_i_same_mass q om (-p) m beta, toC_thermal_d_i_m_m_t_i_same_mass q om p m beta]
  simp only [thermal.d_i_m_m_t_i_same_mass, r_0_eq, r_0_same_mass_eq, tlog_eq, tlog_same_mass_eq, tlog_zero_mass_eq, tlog_l_eq, tlog_l_same_mass_eq, tlog_l_zero_mass_eq, tlog_t_eq, tlog_t_same_mass_eq, tlog_t_zero_mass_eq, zm_r_0_eq, zm_r_0_same_mass_eq, z0_r_0_C, z0_r_0_eq, z0_tlog_eq, z0_tlog_t_eq, toC_complex, toC_real, ofR_complex, ofR_real, toC_ofR, toC_zero, toC_energy, toC_bose, map_mul, map_add, map_neg, map_sub, map_inv₀, map_div₀]
  try push_cast
  try simp only [ofReal_energy, ofReal_bose]
  simp only [e_m, en_m, R0_neg_p, PF_neg_p, Complex.sub_im, Complex.mul_im, Complex.neg_im, Complex.ofReal_im, Complex.zero_im, mul_zero, zero_mul, add_zero, sub_zero, neg_zero]
  try simp only [mul_inv, inv_neg]
  ring

theorem even_p_thermal_d_i_m_0_t_i (q : ℝ) (om : ℂ) (p : ℝ) (m : ℝ) (beta : ℝ) (h_m : InStrip om (energy q m)) (h_0 : InStrip om q) :
    thermal.d_i_m_0_t_i q om (-p) m beta = thermal.d_i_m_0_t_i q om p m beta := by
  have e_m : ∀ d : ℂ, d.im = 0 → TL q om (-(p : ℂ)) (energy q (m : ℂ)) d = -TL q om p (energy q (m : ℂ)) d :=
    fun d hd => TL_neg_p (h_m.R0 p (energy_re q m) (energy_im q m) hd)
  have en_m : ∀ d : ℂ, d.im = 0 → TL q (-om) (-(p : ℂ)) (energy q (m : ℂ)) d = -TL q (-om) p (energy q (m : ℂ)) d :=
    fun d hd => TL_neg_p (h_m.neg.R0 p (energy_re q m) (energy_im q m) hd)
  have e_0 : ∀ d : ℂ, d.im = 0 → TL q om (-(p : ℂ)) (q : ℂ) d = -TL q om p (q : ℂ) d :=
    fun d hd => TL_neg_p (h_0.R0 p (Complex.ofReal_re q) (Complex.ofReal_im q) hd)
  have en_0 : ∀ d : ℂ, d.im = 0 → TL q (-om) (-(p : ℂ)) (q : ℂ) d = -TL q (-om) p (q : ℂ) d :=
    fun d hd => TL_neg_p (h_0.neg.R0 p (Complex.ofReal_re q) (Complex.ofReal_im q) hd)
  rw [toC_thermal_d_i_m_0_t_i q om (-p) m beta, toC_thermal_d_i_m_0_t_i q om p m beta]
  simp only [thermal.d_i_m_0_t_i, r_0_eq, r_0_same_mass_eq, tlog_eq, tlog_same_mass_eq, tlog_zero_mass_eq, tlog_l_eq, tlog_l_same_mass_eq, tlog_l_zero_mass_eq, tlog_t_eq, tlog_t_same_mass_eq, tlog_t_zero_mass_eq, zm_r_0_eq, zm_r_0_same_mass_eq, z0_r_0_C, z0_r_0_eq, z0_tlog_eq, z0_tlog_t_eq, toC_complex, toC_real, ofR_complex, ofR_real, toC_ofR, toC_zero, toC_energy, toC_bose, map_mul, map_add, map_neg, map_sub, map_inv₀, map_div₀]
  try push_cast
  try simp only [ofReal_energy, ofReal_bose]
  simp only [e_m, en_m, e_0, en_0, R0_neg_p, PF_neg_p, Complex.sub_im, Complex.mul_im, Complex.neg_im, Complex.ofReal_im, Complex.zero_im, mul_zero, zero_mul, add_zero, sub_zero, neg_zero]
  try simp only [mul_inv, inv_neg]
  ring

theorem even_p_thermal_d_i_0_0_t_i (q : ℝ) (om : ℂ) (p : ℝ) (beta : ℝ) (h_0 : InStrip om q) :
    thermal.d_i_0_0_t_i q om (-p) beta = thermal.d_i_0_0_t_i q om p beta := by
  have e_0 : ∀ d : ℂ, d.im = 0 → TL q om (-(p : ℂ)) (q : ℂ) d = -TL q om p (q : ℂ) d :=
    fun d hd => TL_neg_p (h_0.R0 p (Complex.ofReal_re q) (Complex.ofReal_im q) hd)
  have en_0 : ∀ d : ℂ, d.im = 0 → TL q (-om) (-(p : ℂ)) (q : ℂ) d = -TL q (-om) p (q : ℂ) d :=
    fun d hd => TL_neg_p (h_0.neg.R0 p (Complex.ofReal_re q) (Complex.ofReal_im q) hd)
  rw [toC_thermal_d_i_0_0_t_i q om (-p) beta, toC_thermal_d_i_0_0_t_i q om p beta]
  simp only [thermal.d_i_0_0_t_i, r_0_eq, r_0_same_mass_eq, tlog_eq, tlog_same_mass_eq, tlog_zero_mass_eq, tlog_l_eq, tlog_l_same_mass_eq, tlog_l_zero_mass_eq, tlog_t_eq, tlog_t_same_mass_eq, tlog_t_zero_mass_eq, zm_r_0_eq, zm_r_0_same_mass_eq, z0_r_0_C, z0_r_0_eq, z0_tlog_eq, z0_tlog_t_eq, toC_complex, toC_real, ofR_complex, ofR_real, toC_ofR, toC_zero, toC_energy, toC_bose, map_mul, map_add, map_neg, map_sub, map_inv₀, map_div₀]
  try push_cast
  try simp only [ofReal_energy, ofReal_bose]
  simp only [e_0, en_0, R0_neg_p, PF_neg_p, Complex.sub_im, Complex.mul_im, Complex.neg_im, Complex.ofReal_im, Complex.zero_im, mul_zero, zero_mul, add_zero, sub_zero, neg_zero]
  try simp only [mul_inv, inv_neg]
  ring

theorem even_p_thermal_zero_matsubara_i_m_m_i (q : ℝ) (p : ℝ) (m1 : ℝ) (m2 : ℝ) (beta : ℝ) :
    thermal.zero_matsubara.i_m_m_i q (-p) m1 m2 beta = thermal.zero_matsubara.i_m_m_i q p m1 m2 beta := by
  rw [toC_thermal_zero_matsubara_i_m_m_i q (-p) m1 m2 beta, toC_thermal_zero_matsubara_i_m_m_i q p m1 m2 beta]
  simp only [thermal.zero_matsubara.i_m_m_i, r_0_eq, r_0_same_mass_eq, tlog_eq, tlog_same_mass_eq, tlog_zero_mass_eq, tlog_l_eq, tlog_l_same_mass_eq, tlog_l_zero_mass_eq, tlog_t_eq, tlog_t_same_mass_eq, tlog_t_zero_mass_eq, zm_r_0_eq, zm_r_0_same_mass_eq, z0_r_0_C, z0_r_0_eq, z0_tlog_eq, z0_tlog_t_eq, toC_complex, toC_real, ofR_complex, ofR_real, toC_ofR, toC_zero, toC_energy, toC_bose, map_mul, map_add, map_neg, map_sub, map_inv₀, map_div₀]
  try push_cast
  try simp only [z0_r_0_R, z0_tlog_same_mass_eq, z0_tlog_zero_mass_eq, z0_tlog_t_same_mass_eq, z0_tlog_t_zero_mass_eq, ofReal_energy, ofReal_bose]
  try simp only [Complex.ofReal_neg, ZL_neg_p, Complex.sub_im, Complex.mul_im, Complex.neg_im, Complex.ofReal_im, Complex.zero_im, mul_zero, zero_mul, add_zero, sub_zero, neg_zero]
  have i1 : (-(p : ℂ) + q * 2)⁻¹ = -((p : ℂ) - q * 2)⁻¹ := by rw [← inv_neg]; ring_nf
  have i2 : (-(p : ℂ) - q * 2)⁻¹ = -((p : ℂ) + q * 2)⁻¹ := by rw [← inv_neg]; ring_nf
  have i3 : ((q : ℂ) * 2 - p)⁻¹ = -(-((q : ℂ) * 2) + p)⁻¹ := by rw [← inv_neg]; ring_nf
  have i4 : (-((q : ℂ) * 2) - p)⁻¹ = -((q : ℂ) * 2 + p)⁻¹ := by rw [← inv_neg]; ring_nf
  first | ring1 | (ring_nf; try simp only [i1, i2, i3, i4]; ring1)

theorem even_p_thermal_zero_matsubara_i_m_m_i_same_mass (q : ℝ) (p : ℝ) (m : ℝ) (beta : ℝ) :
    thermal.zero_matsubara.i_m_m_i_same_mass q (-p) m beta = thermal.zero_matsubara.i_m_m_i_same_mass q p m beta := by
  apply Complex.ofReal_injective
  simp only [thermal.zero_matsubara.i_m_m_i_same_mass, r_0_eq, r_0_same_mass_eq, tlog_eq, tlog_same_mass_eq, tlog_zero_mass_eq, tlog_l_eq, tlog_l_same_mass_eq, tlog_l_zero_mass_eq, tlog_t_eq, tlog_t_same_mass_eq, tlog_t_zero_mass_eq, zm_r_0_eq, zm_r_0_same_mass_eq, z0_r_0_C, z0_r_0_eq, z0_tlog_eq, z0_tlog_t_eq, toC_complex, toC_real, ofR_complex, ofR_real, toC_ofR, toC_zero, toC_energy, toC_bose, map_mul, map_add, map_neg, map_sub, map_inv₀, map_div₀]
  try push_cast
  try simp only [z0_r_0_R, z0_tlog_same_mass_eq, z0_tlog_zero_mass_eq, z0_tlog_t_same_mass_eq, z0_tlog_t_zero_mass_eq, ofReal_energy, ofReal_bose]
  try simp only [Complex.ofReal_neg, ZL_neg_p, Complex.sub_im, Complex.mul_im, Complex.neg_im, Complex.ofReal_im, Complex.zero_im, mul_zero, zero_mul, add_zero, sub_zero, neg_zero]
  have i1 : (-(p : ℂ) + q * 2)⁻¹ = -((p : ℂ) - q * 2)⁻¹ := by rw [← inv_neg]; ring_nf
  have i2 : (-(p : ℂ) - q * 2)⁻¹ = -((p : ℂ) + q * 2)⁻¹ := by rw [← inv_neg]; ring_nf
  have i3 : ((q : ℂ) * 2 - p)⁻¹ = -(-((q : ℂ) * 2) + p)⁻¹ := by rw [← inv_neg]; ring_nf
  have i4 : (-((q : ℂ) * 2) - p)⁻¹ = -((q : ℂ) * 2 + p)⁻¹ := by rw [← inv_neg]; ring_nf
  first | ring1 | (ring_nf; try simp only [i1, i2, i3, i4]; ring1)

theorem even_p_thermal_zero_matsubara_i_m_0_i (q : ℝ) (p : ℝ) (m : ℝ) (beta : ℝ) :
    thermal.zero_matsubara.i_m_0_i q (-p) m beta = thermal.zero_matsubara.i_m_0_i q p m beta := by
  rw [toC_thermal_zero_matsubara_i_m_0_i q (-p) m beta, toC_thermal_zero_matsubara_i_m_0_i q p m beta]
  simp only [thermal.zero_matsubara.i_m_0_i, r_0_eq, r_0_same_mass_eq, tlog_eq, tlog_same_mass_eq, tlog_zero_mass_eq, tlog_l_eq, tlog_l_same_mass_eq, tlog_l_zero_mass_eq, tlog_t_eq, tlog_t_same_mass_eq, tlog_t_zero_mass_eq, zm_r_0_eq, zm_r_0_same_mass_eq, z0_r_0_C, z0_r_0_eq, z0_tlog_eq, z0_tlog_t_eq, toC_complex, toC_real, ofR_complex, ofR_real, toC_ofR, toC_zero, toC_energy, toC_bose, map_mul, map_add, map_neg, map_sub, map_inv₀, map_div₀]
  try push_cast
  try simp only [z0_r_0_R, z0_tlog_same_mass_eq, z0_tlog_zero_mass_eq, z0_tlog_t_same_mass_eq, z0_tlog_t_zero_mass_eq, ofReal_energy, ofReal_bose]
  try simp only [Complex.ofReal_neg, ZL_neg_p, Complex.sub_im, Complex.mul_im, Complex.neg_im, Complex.ofReal_im, Complex.zero_im, mul_zero, zero_mul, add_zero, sub_zero, neg_zero]
  have i1 : (-(p : ℂ) + q * 2)⁻¹ = -((p : ℂ) - q * 2)⁻¹ := by rw [← inv_neg]; ring_nf
  have i2 : (-(p : ℂ) - q * 2)⁻¹ = -((p : ℂ) + q * 2)⁻¹ := by rw [← inv_neg]; ring_nf
  have i3 : ((q : ℂ) * 2 - p)⁻¹ = -(-((q : ℂ) * 2) + p)⁻¹ := by rw [← inv_neg]; ring_nf
  have i4 : (-((q : ℂ) * 2) - p)⁻¹ = -((q : ℂ) * 2 + p)⁻¹ := by rw [← inv_neg]; ring_nf
  first | ring1 | (ring_nf; try simp only [i1, i2, i3, i4]; ring1)

theorem even_p_thermal_zero_matsubara_i_0_0_i (q : ℝ) (p : ℝ) (beta : ℝ) :
    thermal.zero_matsubara.i_0_0_i q (-p) beta = thermal.zero_matsubara.i_0_0_i q p beta := by
  apply Complex.ofReal_injective
  simp only [thermal.zero_matsubara.i_0_0_i, r_0_eq, r_0_same_mass_eq, tlog_eq, tlog_same_mass_eq, tlog_zero_mass_eq, tlog_l_eq, tlog_l_same_mass_eq, tlog_l_zero_mass_eq, tlog_t_eq, tlog_t_same_mass_eq, tlog_t_zero_mass_eq, zm_r_0_eq, zm_r_0_same_mass_eq, z0_r_0_C, z0_r_0_eq, z0_tlog_eq, z0_tlog_t_eq, toC_complex, toC_real, ofR_complex, ofR_real, toC_ofR, toC_zero, toC_energy, toC_bose, map_mul, map_add, map_neg, map_sub, map_inv₀, map_div₀]
  try push_cast
  try simp only [z0_r_0_R, z0_tlog_same_mass_eq, z0_tlog_zero_mass_eq, z0_tlog_t_same_mass_eq, z0_tlog_t_zero_mass_eq, ofReal_energy, ofReal_bose]
  try simp only [Complex.ofReal_neg, ZL_neg_p, Complex.sub_im, Complex.mul_im, Complex.neg_im, Complex.ofReal_im, Complex.zero_im, mul_zero, zero_mul, add_zero, sub_zero, neg_zero]
  have i1 : (-(p : ℂ) + q * 2)⁻¹ = -((p : ℂ) - q * 2)⁻¹ := by rw [← inv_neg]; ring_nf
  have i2 : (-(p : ℂ) - q * 2)⁻¹ = -((p : ℂ) + q * 2)⁻¹ := by rw [← inv_neg]; ring_nf
  have i3 : ((q : ℂ) * 2 - p)⁻¹ = -(-((q : ℂ) * 2) + p)⁻¹ := by rw [← inv_neg]; ring_nf
  have i4 : (-((q : ℂ) * 2) - p)⁻¹ = -((q : ℂ) * 2 + p)⁻¹ := by rw [← inv_neg]; ring_nf
  first | ring1 | (ring_nf; try simp only [i1, i2, i3, i4]; ring1)

theorem even_p_thermal_zero_matsubara_i_m_m_l_i (q : ℝ) (p : ℝ) (m1 : ℝ) (m2 : ℝ) (beta : ℝ) :
    thermal.zero_matsubara.i_m_m_l_i q (-p) m1 m2 beta = thermal.zero_matsubara.i_m_m_l_i q p m1 m2 beta := by
  rw [toC_thermal_zero_matsubara_i_m_m_l_i q (-p) m1 m2 beta, toC_thermal_zero_matsubara_i_m_m_l_i q p m1 m2 beta]
  simp only [thermal.zero_matsubara.i_m_m_l_i, r_0_eq, r_0_same_mass_eq, tlog_eq, tlog_same_mass_eq, tlog_zero_mass_eq, tlog_l_eq, tlog_l_same_mass_eq, tlog_l_zero_mass_eq, tlog_t_eq, tlog_t_same_mass_eq, tlog_t_zero_mass_eq, zm_r_0_eq, zm_r_0_same_mass_eq, z0_r_0_C, z0_r_0_eq, z0_tlog_eq, z0_tlog_t_eq, toC_complex, toC_real, ofR_complex, ofR_real, toC_ofR, toC_zero, toC_energy, toC_bose, map_mul, map_add, map_neg, map_sub, map_inv₀, map_div₀]
  try push_cast
  try simp only [z0_r_0_R, z0_tlog_same_mass_eq, z0_tlog_zero_mass_eq, z0_tlog_t_same_mass_eq, z0_tlog_t_zero_mass_eq, ofReal_energy, ofReal_bose]
  try simp only [Complex.ofReal_neg, ZL_neg_p, Complex.sub_im, Complex.mul_im, Complex.neg_im, Complex.ofReal_im, Complex.zero_im, mul_zero, zero_mul, add_zero, sub_zero, neg_zero]
  have i1 : (-(p : ℂ) + q * 2)⁻¹ = -((p : ℂ) - q * 2)⁻¹ := by rw [← inv_neg]; ring_nf
  have i2 : (-(p : ℂ) - q * 2)⁻¹ = -((p : ℂ) + q * 2)⁻¹ := by rw [← inv_neg]; ring_nf
  have i3 : ((q : ℂ) * 2 - p)⁻¹ = -(-((q : ℂ) * 2) + p)⁻¹ := by rw [← inv_neg]; ring_nf
  have i4 : (-((q : ℂ) * 2) - p)⁻¹ = -((q : ℂ) * 2 + p)⁻¹ := by rw [← inv_neg]; ring_nf
  first | ring1 | (ring_nf; try simp only [i1, i2, i3, i4]; ring1)

theorem even_p_thermal_zero_matsubara_i_m_m_l_i_same_mass (q : ℝ) (p : ℝ) (m : ℝ) (beta : ℝ) :
    thermal.zero_matsubara.i_m_m_l_i_same_mass q (-p) m beta = thermal.zero_matsubara.i_m_m_l_i_same_mass q p m beta := by
  apply Complex.ofReal_injective
  simp only [thermal.zero_matsubara.i_m_m_l_i_same_mass, r_0_eq, r_0_same_mass_eq, tlog_eq, tlog_same_mass_eq, tlog_zero_mass_eq, tlog_l_eq, tlog_l_same_mass_eq, tlog_l_zero_mass_eq, tlog_t_eq, tlog_t_same_mass_eq, tlog_t_zero_mass_eq, zm_r_0_eq, zm_r_0_same_mass_eq, z0_r_0_C, z0_r_0_eq, z0_tlog_eq, z0_tlog_t_eq, toC_complex, toC_real, ofR_complex, ofR_real, toC_ofR, toC_zero, toC_energy, toC_bose, map_mul, map_add, map_neg, map_sub, map_inv₀, map_div₀]
  try push_cast
  try simp only [z0_r_0_R, z0_tlog_same_mass_eq, z0_tlog_zero_mass_eq, z0_tlog_t_same_mass_eq, z0_tlog_t_zero_mass_eq, ofReal_energy, ofReal_bose]
  try simp only [Complex.ofReal_neg, ZL_neg_p, Complex.sub_im, Complex.mul_im, Complex.neg_im, Complex.ofReal_im, Complex.zero_im, mul_zero, zero_mul, add_zero, sub_zero, neg_zero]
  have i1 : (-(p : ℂ) + q * 2)⁻¹ = -((p : ℂ) - q * 2)⁻¹ := by rw [← inv_neg]; ring_nf
  have i2 : (-(p : ℂ) - q * 2)⁻¹ = -((p : ℂ) + q * 2)⁻¹ := by rw [← inv_neg]; ring_nf
  have i3 : ((q : ℂ) * 2 - p)⁻¹ = -(-((q : ℂ) * 2) + p)⁻¹ := by rw [← inv_neg]; ring_nf
  have i4 : (-((q : ℂ) * 2) - p)⁻¹ = -((q : ℂ) * 2 + p)⁻¹ := by rw [← inv_neg]; ring_nf
  first | ring1 | (ring_nf; try simp only [i1, i2, i3, i4]; ring1)

theorem even_p_thermal_zero_matsubara_i_m_0_l_i (q : ℝ) (p : ℝ) (m : ℝ) (beta : ℝ) :
    thermal.zero_matsubara.i_m_0_l_i q (-p) m beta = thermal.zero_matsubara.i_m_0_l_i q p m beta := by
  rw [toC_thermal_zero_matsubara_i_m_0_l_i q (-p) m beta, toC_thermal_zero_matsubara_i_m_0_l_i q p m beta]
  simp only [thermal.zero_matsubara.i_m_0_l_i, r_0_eq, r_0_same_mass_eq, tlog_eq, tlog_same_mass_eq, tlog_zero_mass_eq, tlog_l_eq, tlog_l_same_mass_eq, tlog_l_zero_mass_eq, tlog_t_eq, tlog_t_same_mass_eq, tlog_t_zero_mass_eq, zm_r_0_eq, zm_r_0_same_mass_eq, z0_r_0_C, z0_r_0_eq, z0_tlog_eq, z0_tlog_t_eq, toC_complex, toC_real, ofR_complex, ofR_real, toC_ofR, toC_zero, toC_energy, toC_bose, map_mul, map_add, map_neg, map_sub, map_inv₀, map_div₀]
  try push_cast
  try simp only [z0_r_0_R, z0_tlog_same_mass_eq, z0_tlog_zero_mass_eq, z0_tlog_t_same_mass_eq, z0_tlog_t_zero_mass_eq, ofReal_energy, ofReal_bose]
  try simp only [Complex.ofReal_neg, ZL_neg_p, Complex.sub_im, Complex.mul_im, Complex.neg_im, Complex.ofReal_im, Complex.zero_im, mul_zero, zero_mul, add_zero, sub_zero, neg_zero]
  have i1 : (-(p : ℂ) + q * 2)⁻¹ = -((p : ℂ) - q * 2)⁻¹ := by rw [← inv_neg]; ring_nf
  have i2 : (-(p : ℂ) - q * 2)⁻¹ = -((p : ℂ) + q * 2)⁻¹ := by rw [← inv_neg]; ring_nf
  have i3 : ((q : ℂ) * 2 - p)⁻¹ = -(-((q : ℂ) * 2) + p)⁻¹ := by rw [← inv_neg]; ring_nf
  have i4 : (-((q : ℂ) * 2) - p)⁻¹ = -((q : ℂ) * 2 + p)⁻¹ := by rw [← inv_neg]; ring_nf
  first | ring1 | (ring_nf; try simp only [i1, i2, i3, i4]; ring1)

theorem even_p_thermal_zero_matsubara_i_0_0_l_i (q : ℝ) (p : ℝ) (beta : ℝ) :
    thermal.zero_matsubara.i_0_0_l_i q (-p) beta = thermal.zero_matsubara.i_0_0_l_i q p beta := by
  apply Complex.ofReal_injective
  simp only [thermal.zero_matsubara.i_0_0_l_i, r_0_eq, r_0_same_mass_eq, tlog_eq, tlog_same_mass_eq, tlog_zero_mass_eq, tlog_l_eq, tlog_l_same_mass_eq, tlog_l_zero_mass_eq, tlog_t_eq, tlog_t_same_mass_eq, tlog_t_zero_mass_eq, zm_r_0_eq, zm_r_0_same_mass_eq, z0_r_0_C, z0_r_0_eq, z0_tlog_eq, z0_tlog_t_eq, toC_complex, toC_real, ofR_complex, ofR_real, toC_ofR, toC_zero, toC_energy, toC_bose, map_mul, map_add, map_neg, map_sub, map_inv₀, map_div₀]
  try push_cast
  try simp only [z0_r_0_R, z0_tlog_same_mass_eq, z0_tlog_zero_mass_eq, z0_tlog_t_same_mass_eq, z0_tlog_t_zero_mass_eq, ofReal_energy, ofReal_bose]
  try simp only [Complex.ofReal_neg, ZL_neg_p, Complex.sub_im, Complex.mul_im, Complex.neg_im, Complex.ofReal_im, Complex.zero_im, mul_zero, zero_mul, add_zero, sub_zero, neg_zero]
  have i1 : (-(p : ℂ) + q * 2)⁻¹ = -((p : ℂ) - q * 2)⁻¹ := by rw [← inv_neg]; ring_nf
  have i2 : (-(p : ℂ) - q * 2)⁻¹ = -((p : ℂ) + q * 2)⁻¹ := by rw [← inv_neg]; ring_nf
  have i3 : ((q : ℂ) * 2 - p)⁻¹ = -(-((q : ℂ) * 2) + p)⁻¹ := by rw [← inv_neg]; ring_nf
  have i4 : (-((q : ℂ) * 2) - p)⁻¹ = -((q : ℂ) * 2 + p)⁻¹ := by rw [← inv_neg]; ring_nf
  first | ring1 | (ring_nf; try simp only [i1, i2, i3, i4]; ring1)

theorem even_p_thermal_zero_matsubara_i_m_m_t_i (q : ℝ) (p : ℝ) (m1 : ℝ) (m2 : ℝ) (beta : ℝ) :
    thermal.zero_matsubara.i_m_m_t_i q (-p) m1 m2 beta = thermal.zero_matsubara.i_m_m_t_i q p m1 m2 beta := by
  rw [toC_thermal_zero_matsubara_i_m_m_t_i q (-p) m1 m2 beta, toC_thermal_zero_matsubara_i_m_m_t_i q p m1 m2 beta]
  simp only [thermal.zero_matsubara.i_m_m_t_i, r_0_eq, r_0_same_mass_eq, tlog_eq, tlog_same_mass_eq, tlog_zero_mass_eq, tlog_l_eq, tlog_l_same_mass_eq, tlog_l_zero_mass_eq, tlog_t_eq, tlog_t_same_mass_eq, tlog_t_zero_mass_eq, zm_r_0_eq, zm_r_0_same_mass_eq, z0_r_0_C, z0_r_0_eq, z0_tlog_eq, z0_tlog_t_eq, toC_complex, toC_real, ofR_complex, ofR_real, toC_ofR, toC_zero, toC_energy, toC_bose, map_mul, map_add, map_neg, map_sub, map_inv₀, map_div₀]
  try push_cast
  try simp only [z0_r_0_R, z0_tlog_same_mass_eq, z0_tlog_zero_mass_eq, z0_tlog_t_same_mass_eq, z0_tlog_t_zero_mass_eq, ofReal_energy, ofReal_bose]
  try simp only [Complex.ofReal_neg, ZL_neg_p, Complex.sub_im, Complex.mul_im, Complex.neg_im, Complex.ofReal_im, Complex.zero_im, mul_zero, zero_mul, add_zero, sub_zero, neg_zero]
  have i1 : (-(p : ℂ) + q * 2)⁻¹ = -((p : ℂ) - q * 2)⁻¹ := by rw [← inv_neg]; ring_nf
  have i2 : (-(p : ℂ) - q * 2)⁻¹ = -((p : ℂ) + q * 2)⁻¹ := by rw [← inv_neg]; ring_nf
  have i3 : ((q : ℂ) * 2 - p)⁻¹ = -(-((q : ℂ) * 2) + p)⁻¹ := by rw [← inv_neg]; ring_nf
  have i4 : (-((q : ℂ) * 2) - p)⁻¹ = -((q : ℂ) * 2 + p)⁻¹ := by rw [← inv_neg]; ring_nf
  first | ring1 | (ring_nf; try simp only [i1, i2, i3, i4]; ring1)

theorem even_p_thermal_zero_matsubara_i_m_m_t_i_same_mass (q : ℝ) (p : ℝ) (m : ℝ) (beta : ℝ) :
    thermal.zero_matsubara.i_m_m_t_i_same_mass q (-p) m beta = thermal.zero_matsubara.i_m_m_t_i_same_mass q p m beta := by
  apply Complex.ofReal_injective
  simp only [thermal.zero_matsubara.i_m_m_t_i_same_mass, r_0_eq, r_0_same_mass_eq, tlog_eq, tlog_same_mass_eq, tlog_zero_mass_eq, tlog_l_eq, tlog_l_same_mass_eq, tlog_l_zero_mass_eq, tlog_t_eq, tlog_t_same_mass_eq, tlog_t_zero_mass_eq, zm_r_0_eq, zm_r_0_same_mass_eq, z0_r_0_C, z0_r_0_eq, z0_tlog_eq, z0_tlog_t_eq, toC_complex, toC_real, ofR_complex, ofR_real, toC_ofR, toC_zero, toC_energy, toC_bose, map_mul, map_add, map_neg, map_sub, map_inv₀, map_div₀]
  try push_cast
  try simp only [z0_r_0_R, z0_tlog_same_mass_eq, z0_tlog_zero_mass_eq, z0_tlog_t_same_mass_eq, z0_tlog_t_zero_mass_eq, ofReal_energy, ofReal_bose]
  try simp only [Complex.ofReal_neg, ZL_neg_p, Complex.sub_im, Complex.mul_im, Complex.neg_im, Complex.ofReal_im, Complex.zero_im, mul_zero, zero_mul, add_zero, sub_zero, neg_zero]
  have i1 : (-(p : ℂ) + q * 2)⁻¹ = -((p : ℂ) - q * 2)⁻¹ := by rw [← inv_neg]; ring_nf
  have i2 : (-(p : ℂ) - q * 2)⁻¹ = -((p : ℂ) + q * 2)⁻¹ := by rw [← inv_neg]; ring_nf
  have i3 : ((q : ℂ) * 2 - p)⁻¹ = -(-((q : ℂ) * 2) + p)⁻¹ := by rw [← inv_neg]; ring_nf
  have i4 : (-((q : ℂ) * 2) - p)⁻¹ = -((q : ℂ) * 2 + p)⁻¹ := by rw [← inv_neg]; ring_nf
  first | ring1 | (ring_nf; try simp only [i1, i2, i3, i4]; ring1)

theorem even_p_thermal_zero_matsubara_i_m_0_t_i (q : ℝ) (p : ℝ) (m : ℝ) (beta : ℝ) :
    thermal.zero_matsubara.i_m_0_t_i q (-p) m beta = thermal.zero_matsubara.i_m_0_t_i q p m beta := by
  rw [toC_thermal_zero_matsubara_i_m_0_t_i q (-p) m beta, toC_thermal_zero_matsubara_i_m_0_t_i q p m beta]
  simp only [thermal.zero_matsubara.i_m_0_t_i, r_0_eq, r_0_same_mass_eq, tlog_eq, tlog_same_mass_eq, tlog_zero_mass_eq, tlog_l_eq, tlog_l_same_mass_eq, tlog_l_zero_mass_eq, tlog_t_eq, tlog_t_same_mass_eq, tlog_t_zero_mass_eq, zm_r_0_eq, zm_r_0_same_mass_eq, z0_r_0_C, z0_r_0_eq, z0_tlog_eq, z0_tlog_t_eq, toC_complex, toC_real, ofR_complex, ofR_real, toC_ofR, toC_zero, toC_energy, toC_bose, map_mul, map_add, map_neg, map_sub, map_inv₀, map_div₀]
  try push_cast
  try simp only [z0_r_0_R, z0_tlog_same_mass_eq, z0_tlog_zero_mass_eq, z0_tlog_t_same_mass_eq, z0_tlog_t_zero_mass_eq, ofReal_energy, ofReal_bose]
  try simp only [Complex.ofReal_neg, ZL_neg_p, Complex.sub_im, Complex.mul_im, Complex.neg_im, Complex.ofReal_im, Complex.zero_im, mul_zero, zero_mul, add_zero, sub_zero, neg_zero]
  have i1 : (-(p : ℂ) + q * 2)⁻¹ = -((p : ℂ) - q * 2)⁻¹ := by rw [← inv_neg]; ring_nf
  have i2 : (-(p : ℂ) - q * 2)⁻¹ = -((p : ℂ) + q * 2)⁻¹ := by rw [← inv_neg]; ring_nf
  have i3 : ((q : ℂ) * 2 - p)⁻¹ = -(-((q : ℂ) * 2) + p)⁻¹ := by rw [← inv_neg]; ring_nf
  have i4 : (-((q : ℂ) * 2) - p)⁻¹ = -((q : ℂ) * 2 + p)⁻¹ := by rw [← inv_neg]; ring_nf
  first | ring1 | (ring_nf; try simp only [i1, i2, i3, i4]; ring1)

theorem even_p_thermal_zero_matsubara_i_0_0_t_i (q : ℝ) (p : ℝ) (beta : ℝ) :
    thermal.zero_matsubara.i_0_0_t_i q (-p) beta = thermal.zero_matsubara.i_0_0_t_i q p beta := by
  apply Complex.ofReal_injective
  simp only [thermal.zero_matsubara.i_0_0_t_i, r_0_eq, r_0_same_mass_eq, tlog_eq, tlog_same_mass_eq, tlog_zero_mass_eq, tlog_l_eq, tlog_l_same_mass_eq, tlog_l_zero_mass_eq, tlog_t_eq, tlog_t_same_mass_eq, tlog_t_zero_mass_eq, zm_r_0_eq, zm_r_0_same_mass_eq, z0_r_0_C, z0_r_0_eq, z0_tlog_eq, z0_tlog_t_eq, toC_complex, toC_real, ofR_complex, ofR_real, toC_ofR, toC_zero, toC_energy, toC_bose, map_mul, map_add, map_neg, map_sub, map_inv₀, map_div₀]
  try push_cast
  try simp only [z0_r_0_R, z0_tlog_same_mass_eq, z0_tlog_zero_mass_eq, z0_tlog_t_same_mass_eq, z0_tlog_t_zero_mass_eq, ofReal_energy, ofReal_bose]
  try simp only [Complex.ofReal_neg, ZL_neg_p, Complex.sub_im, Complex.mul_im, Complex.neg_im, Complex.ofReal_im, Complex.zero_im, mul_zero, zero_mul, add_zero, sub_zero, neg_zero]
  have i1 : (-(p : ℂ) + q * 2)⁻¹ = -((p : ℂ) - q * 2)⁻¹ := by rw [← inv_neg]; ring_nf
  have i2 : (-(p : ℂ) - q * 2)⁻¹ = -((p : ℂ) + q * 2)⁻¹ := by rw [← inv_neg]; ring_nf
  have i3 : ((q : ℂ) * 2 - p)⁻¹ = -(-((q : ℂ) * 2) + p)⁻¹ := by rw [← inv_neg]; ring_nf
  have i4 : (-((q : ℂ) * 2) - p)⁻¹ = -((q : ℂ) * 2 + p)⁻¹ := by rw [← inv_neg]; ring_nf
  first | ring1 | (ring_nf; try simp only [i1, i2, i3, i4]; ring1)

theorem even_p_thermal_zero_matsubara_d_i_m_m_i (q : ℝ) (p : ℝ) (m1 : ℝ) (m2 : ℝ) (beta : ℝ) :
    thermal.zero_matsubara.d_i_m_m_i q (-p) m1 m2 beta = thermal.zero_matsubara.d_i_m_m_i q p m1 m2 beta := by
  rw [toC_thermal_zero_matsubara_d_i_m_m_i q (-p) m1 m2 beta, toC_thermal_zero_matsubara_d_i_m_m_i q p m1 m2 beta]
  simp only [thermal.zero_matsubara.d_i_m_m_i, r_0_eq, r_0_same_mass_eq, tlog_eq, tlog_same_mass_eq, tlog_zero_mass_eq, tlog_l_eq, tlog_l_same_mass_eq, tlog_l_zero_mass_eq, tlog_t_eq, tlog_t_same_mass_eq, tlog_t_zero_mass_eq, zm_r_0_eq, zm_r_0_same_mass_eq, z0_r_0_C, z0_r_0_eq, z0_tlog_eq, z0_tlog_t_eq, toC_complex, toC_real, ofR_complex, ofR_real, toC_ofR, toC_zero, toC_energy, toC_bose, map_mul, map_add, map_neg, map_sub, map_inv₀, map_div₀]
  try push_cast
  try simp only [z0_r_0_R, z0_tlog_same_mass_eq, z0_tlog_zero_mass_eq, z0_tlog_t_same_mass_eq, z0_tlog_t_zero_mass_eq, ofReal_energy, ofReal_bose]
  try simp only [Complex.ofReal_neg, ZL_neg_p, Complex.sub_im, Complex.mul_im, Complex.neg_im, Complex.ofReal_im, Complex.zero_im, mul_zero, zero_mul, add_zero, sub_zero, neg_zero]
  have i1 : (-(p : ℂ) + q * 2)⁻¹ = -((p : ℂ) - q * 2)⁻¹ := by rw [← inv_neg]; ring_nf
  have i2 : (-(p : ℂ) - q * 2)⁻¹ = -((p : ℂ) + q * 2)⁻¹ := by rw [← inv_neg]; ring_nf
  have i3 : ((q : ℂ) * 2 - p)⁻¹ = -(-((q : ℂ) * 2) + p)⁻¹ := by rw [← inv_neg]; ring_nf
  have i4 : (-((q : ℂ) * 2) - p)⁻¹ = -((q : ℂ) * 2 + p)⁻¹ := by rw [← inv_neg]; ring_nf
  first | ring1 | (ring_nf; try simp only [i1, i2, i3, i4]; ring1)

theorem even_p_thermal_zero_matsubara_d_i_m_m_i_same_mass (q : ℝ) (p : ℝ) (m : ℝ) (beta : ℝ) :
    thermal.zero_matsubara.d_i_m_m_i_same_mass q (-p) m beta = thermal.zero_matsubara.d_i_m_m_i_same_mass q p m beta := by
  apply Complex.ofReal_injective
  simp only [thermal.zero_matsubara.d_i_m_m_i_same_mass, r_0_eq, r_0_same_mass_eq, tlog_eq, tlog_same_mass_eq, tlog_zero_mass_eq, tlog_l_eq, tlog_l_same_mass_eq, tlog_l_zero_mass_eq, tlog_t_eq, tlog_t_same_mass_eq, tlog_t_zero_mass_eq, zm_r_0_eq, zm_r_0_same_mass_eq, z0_r_0_C, z0_r_0_eq, z0_tlog_eq, z0_tlog_t_eq, toC_complex, toC_real, ofR_complex, ofR_real, toC_ofR, toC_zero, toC_energy, toC_bose, map_mul, map_add, map_neg, map_sub, map_inv₀, map_div₀]
  try push_cast
  try simp only [z0_r_0_R, z0_tlog_same_mass_eq, z0_tlog_zero_mass_eq, z0_tlog_t_same_mass_eq, z0_tlog_t_zero_mass_eq, ofReal_energy, ofReal_bose]
  try simp only [Complex.ofReal_neg, ZL_neg_p, Complex.sub_im, Complex.mul_im, Complex.neg_im, Complex.ofReal_im, Complex.zero_im, mul_zero, zero_mul, add_zero, sub_zero, neg_zero]
  have i1 : (-(p : ℂ) + q * 2)⁻¹ = -((p : ℂ) - q * 2)⁻¹ := by rw [← inv_neg]; ring_nf
  have i2 : (-(p : ℂ) - q * 2)⁻¹ = -((p : ℂ) + q * 2)⁻¹ := by rw [← inv_neg]; ring_nf
  have i3 : ((q : ℂ) * 2 - p)⁻¹ = -(-((q : ℂ) * 2) + p)⁻¹ := by rw [← inv_neg]; ring_nf
  have i4 : (-((q : ℂ) * 2) - p)⁻¹ = -((q : ℂ) * 2 + p)⁻¹ := by rw [← inv_neg]; ring_nf
  first | ring1 | (ring_nf; try simp only [i1, i2, i3, i4]; ring1)

theorem even_p_thermal_zero_matsubara_d_i_m_0_i (q : ℝ) (p : ℝ) (m : ℝ) (beta : ℝ) :
    thermal.zero_matsubara.d_i_m_0_i q (-p) m beta = thermal.zero_matsubara.d_i_m_0_i q p m beta := by
  apply Complex.ofReal_injective
  simp only [thermal.zero_matsubara.d_i_m_0_i, r_0_eq, r_0_same_mass_eq, tlog_eq, tlog_same_mass_eq, tlog_zero_mass_eq, tlog_l_eq, tlog_l_same_mass_eq, tlog_l_zero_mass_eq, tlog_t_eq, tlog_t_same_mass_eq, tlog_t_zero_mass_eq, zm_r_0_eq, zm_r_0_same_mass_eq, z0_r_0_C, z0_r_0_eq, z0_tlog_eq, z0_tlog_t_eq, toC_complex, toC_real, ofR_complex, ofR_real, toC_ofR, toC_zero, toC_energy, toC_bose, map_mul, map_add, map_neg, map_sub, map_inv₀, map_div₀]
  try push_cast
  try simp only [z0_r_0_R, z0_tlog_same_mass_eq, z0_tlog_zero_mass_eq, z0_tlog_t_same_mass_eq, z0_tlog_t_zero_mass_eq, ofReal_energy, ofReal_bose]
  try simp only [Complex.ofReal_neg, ZL_neg_p, Complex.sub_im, Complex.mul_im, Complex.neg_im, Complex.ofReal_im, Complex.zero_im, mul_zero, zero_mul, add_zero, sub_zero, neg_zero]
  have i1 : (-(p : ℂ) + q * 2)⁻¹ = -((p : ℂ) - q * 2)⁻¹ := by rw [← inv_neg]; ring_nf
  have i2 : (-(p : ℂ) - q * 2)⁻¹ = -((p : ℂ) + q * 2)⁻¹ := by rw [← inv_neg]; ring_nf
  have i3 : ((q : ℂ) * 2 - p)⁻¹ = -(-((q : ℂ) * 2) + p)⁻¹ := by rw [← inv_neg]; ring_nf
  have i4 : (-((q : ℂ) * 2) - p)⁻¹ = -((q : ℂ) * 2 + p)⁻¹ := by rw [← inv_neg]; ring_nf
  first | ring1 | (ring_nf; try simp only [i1, i2, i3, i4]; ring1)

theorem even_p_thermal_zero_matsubara_d_i_0_0_i (q : ℝ) (p : ℝ) (beta : ℝ) :
    thermal.zero_matsubara.d_i_0_0_i q (-p) beta = thermal.zero_matsubara.d_i_0_0_i q p beta := by
  apply Complex.ofReal_injective
  simp only [thermal.zero_matsubara.d_i_0_0_i, r_0_eq, r_0_same_mass_eq, tlog_eq, tlog_same_mass_eq, tlog_zero_mass_eq, tlog_l_eq, tlog_l_same_mass_eq, tlog_l_zero_mass_eq, tlog_t_eq, tlog_t_same_mass_eq, tlog_t_zero_mass_eq, zm_r_0_eq, zm_r_0_same_mass_eq, z0_r_0_C, z0_r_0_eq, z0_tlog_eq, z0_tlog_t_eq, toC_complex, toC_real, ofR_complex, ofR_real, toC_ofR, toC_zero, toC_energy, toC_bose, map_mul, map_add, map_neg, map_sub, map_inv₀, map_div₀]
  try push_cast
  try simp only [z0_r_0_R, z0_tlog_same_mass_eq, z0_tlog_zero_mass_eq, z0_tlog_t_same_mass_eq, z0_tlog_t_zero_mass_eq, ofReal_energy, ofReal_bose]
  try simp only [Complex.ofReal_neg, ZL_neg_p, Complex.sub_im, Complex.mul_im, Complex.neg_im, Complex.ofReal_im, Complex.zero_im, mul_zero, zero_mul, add_zero, sub_zero, neg_zero]
  have i1 : (-(p : ℂ) + q * 2)⁻¹ = -((p : ℂ) - q * 2)⁻¹ := by rw [← inv_neg]; ring_nf
  have i2 : (-(p : ℂ) - q * 2)⁻¹ = -((p : ℂ) + q * 2)⁻¹ := by rw [← inv_neg]; ring_nf
  have i3 : ((q : ℂ) * 2 - p)⁻¹ = -(-((q : ℂ) * 2) + p)⁻¹ := by rw [← inv_neg]; ring_nf
  have i4 : (-((q : ℂ) * 2) - p)⁻¹ = -((q : ℂ) * 2 + p)⁻¹ := by rw [← inv_neg]; ring_nf
  first | ring1 | (ring_nf; try simp only [i1, i2, i3, i4]; ring1)

theorem even_p_thermal_zero_matsubara_d_i_m_m_l_i (q : ℝ) (p : ℝ) (m1 : ℝ) (m2 : ℝ) (beta : ℝ) :
    thermal.zero_matsubara.d_i_m_m_l_i q (-p) m1 m2 beta = thermal.zero_matsubara.d_i_m_m_l_i q p m1 m2 beta := by
  rw [toC_thermal_zero_matsubara_d_i_m_m_l_i q (-p) m1 m2 beta, toC_thermal_zero_matsubara_d_i_m_m_l_i q p m1 m2 beta]
  simp only [thermal.zero_matsubara.d_i_m_m_l_i, r_0_eq, r_0_same_mass_eq, tlog_eq, tlog_same_mass_eq, tlog_zero_mass_eq, tlog_l_eq, tlog_l_same_mass_eq, tlog_l_zero_mass_eq, tlog_t_eq, tlog_t_same_mass_eq, tlog_t_zero_mass_eq, zm_r_0_eq, zm_r_0_same_mass_eq, z0_r_0_C, z0_r_0_eq, z0_tlog_eq, z0_tlog_t_eq, toC_complex, toC_real, ofR_complex, ofR_real, toC_ofR, toC_zero, toC_energy, toC_bose, map_mul, map_add, map_neg, map_sub, map_inv₀, map_div₀]
  try push_cast
  try simp only [z0_r_0_R, z0_tlog_same_mass_eq, z0_tlog_zero_mass_eq, z0_tlog_t_same_mass_eq, z0_tlog_t_zero_mass_eq, ofReal_energy, ofReal_bose]
  try simp only [Complex.ofReal_neg, ZL_neg_p, Complex.sub_im, Complex.mul_im, Complex.neg_im, Complex.ofReal_im, Complex.zero_im, mul_zero, zero_mul, add_zero, sub_zero, neg_zero]
  have i1 : (-(p : ℂ) + q * 2)⁻¹ = -((p : ℂ) - q * 2)⁻¹ := by rw [← inv_neg]; ring_nf
  have i2 : (-(p : ℂ) - q * 2)⁻¹ = -((p : ℂ) + q * 2)⁻¹ := by rw [← inv_neg]; ring_nf
  have i3 : ((q : ℂ) * 2 - p)⁻¹ = -(-((q : ℂ) * 2) + p)⁻¹ := by rw [← inv_neg]; ring_nf
  have i4 : (-((q : ℂ) * 2) - p)⁻¹ = -((q : ℂ) * 2 + p)⁻¹ := by rw [← inv_neg]; ring_nf
  first | ring1 | (ring_nf; try simp only [i1, i2, i3, i4]; ring1)

theorem even_p_thermal_zero_matsubara_d_i_m_m_l_i_same_mass (q : ℝ) (p : ℝ) (m : ℝ) (beta : ℝ) :
    thermal.zero_matsubara.d_i_m_m_l_i_same_mass q (-p) m beta = thermal.zero_matsubara.d_i_m_m_l_i_same_mass q p m beta := by
  apply Complex.ofReal_injective
  simp only [thermal.zero_matsubara.d_i_m_m_l_i_same_mass, r_0_eq, r_0_same_mass_eq, tlog_eq, tlog_same_mass_eq, tlog_zero_mass_eq, tlog_l_eq, tlog_l_same_mass_eq, tlog_l_zero_mass_eq, tlog_t_eq, tlog_t_same_mass_eq, tlog_t_zero_mass_eq, zm_r_0_eq, zm_r_0_same_mass_eq, z0_r_0_C, z0_r_0_eq, z0_tlog_eq, z0_tlog_t_eq, toC_complex, toC_real, ofR_complex, ofR_real, toC_ofR, toC_zero, toC_energy, toC_bose, map_mul, map_add, map_neg, map_sub, map_inv₀, map_div₀]
  try push_cast
  try simp only [z0_r_0_R, z0_tlog_same_mass_eq, z0_tlog_zero_mass_eq, z0_tlog_t_same_mass_eq, z0_tlog_t_zero_mass_eq, ofReal_energy, ofReal_bose]
  try simp only [Complex.ofReal_neg, ZL_neg_p, Complex.sub_im, Complex.mul_im, Complex.neg_im, Complex.ofReal_im, Complex.zero_im, mul_zero, zero_mul, add_zero, sub_zero, neg_zero]
  have i1 : (-(p : ℂ) + q * 2)⁻¹ = -((p : ℂ) - q * 2)⁻¹ := by rw [← inv_neg]; ring_nf
  have i2 : (-(p : ℂ) - q * 2)⁻¹ = -((p : ℂ) + q * 2)⁻¹ := by rw [← inv_neg]; ring_nf
  have i3 : ((q : ℂ) * 2 - p)⁻¹ = -(-((q : ℂ) * 2) + p)⁻¹ := by rw [← inv_neg]; ring_nf
  have i4 : (-((q : ℂ) * 2) - p)⁻¹ = -((q : ℂ) * 2 + p)⁻¹ := by rw [← inv_neg]; ring_nf
  first | ring1 | (ring_nf; try simp only [i1, i2, i3, i4]; ring1)

theorem even_p_thermal_zero_matsubara_d_i_m_0_l_i (q : ℝ) (p : ℝ) (m : ℝ) (beta : ℝ) :
    thermal.zero_matsubara.d_i_m_0_l_i q (-p) m beta = thermal.zero_matsubara.d_i_m_0_l_i q p m beta := by
  apply Complex.ofReal_injective
  simp only [thermal.zero_matsubara.d_i_m_0_l_i, r_0_eq, r_0_same_mass_eq, tlog_eq, tlog_same_mass_eq, tlog_zero_mass_eq, tlog_l_eq, tlog_l_same_mass_eq, tlog_l_zero_mass_eq, tlog_t_eq, tlog_t_same_mass_eq, tlog_t_zero_mass_eq, zm_r_0_eq, zm_r_0_same_mass_eq, z0_r_0_C, z0_r_0_eq, z0_tlog_eq, z0_tlog_t_eq, toC_complex, toC_real, ofR_complex, ofR_real, toC_ofR, toC_zero, toC_energy, toC_bose, map_mul, map_add, map_neg, map_sub, map_inv₀, map_div₀]
  try push_cast
  try simp only [z0_r_0_R, z0_tlog_same_mass_eq, z0_tlog_zero_mass_eq, z0_tlog_t_same_mass_eq, z0_tlog_t_zero_mass_eq, ofReal_energy, ofReal_bose]
  try simp only [Complex.ofReal_neg, ZL_neg_p, Complex.sub_im, Complex.mul_im, Complex.neg_im, Complex.ofReal_im, Complex.zero_im, mul_zero, zero_mul, add_zero, sub_zero, neg_zero]
  have i1 : (-(p : ℂ) + q * 2)⁻¹ = -((p : ℂ) - q * 2)⁻¹ := by rw [← inv_neg]; ring_nf
  have i2 : (-(p : ℂ) - q * 2)⁻¹ = -((p : ℂ) + q * 2)⁻¹ := by rw [← inv_neg]; ring_nf
  have i3 : ((q : ℂ) * 2 - p)⁻¹ = -(-((q : ℂ) * 2) + p)⁻¹ := by rw [← inv_neg]; ring_nf
  have i4 : (-((q : ℂ) * 2) - p)⁻¹ = -((q : ℂ) * 2 + p)⁻¹ := by rw [← inv_neg]; ring_nf
  first | ring1 | (ring_nf; try simp only [i1, i2, i3, i4]; ring1)

theorem even_p_thermal_zero_matsubara_d_i_0_0_l_i (q : ℝ) (p : ℝ) (beta : ℝ) :
    thermal.zero_matsubara.d_i_0_0_l_i q (-p) beta = thermal.zero_matsubara.d_i_0_0_l_i q p beta := by
  apply Complex.ofReal_injective
  simp only [thermal.zero_matsubara.d_i_0_0_l_i, r_0_eq, r_0_same_mass_eq, tlog_eq, tlog_same_mass_eq, tlog_zero_mass_eq, tlog_l_eq, tlog_l_same_mass_eq, tlog_l_zero_mass_eq, tlog_t_eq, tlog_t_same_mass_eq, tlog_t_zero_mass_eq, zm_r_0_eq, zm_r_0_same_mass_eq, z0_r_0_C, z0_r_0_eq, z0_tlog_eq, z0_tlog_t_eq, toC_complex, toC_real, ofR_complex, ofR_real, toC_ofR, toC_zero, toC_energy, toC_bose, map_mul, map_add, map_neg, map_sub, map_inv₀, map_div₀]
  try push_cast
  try simp only [z0_r_0_R, z0_tlog_same_mass_eq, z0_tlog_zero_mass_eq, z0_tlog_t_same_mass_eq, z0_tlog_t_zero_mass_eq, ofReal_energy, ofReal_bose]
  try simp only [Complex.ofReal_neg, ZL_neg_p, Complex.sub_im, Complex.mul_im, Complex.neg_im, Complex.ofReal_im, Complex.zero_im, mul_zero, zero_mul, add_zero, sub_zero, neg_zero]
  have i1 : (-(p : ℂ) + q * 2)⁻¹ = -((p : ℂ) - q * 2)⁻¹ := by rw [← inv_neg]; ring_nf
  have i2 : (-(p : ℂ) - q * 2)⁻¹ = -((p : ℂ) + q * 2)⁻¹ := by rw [← inv_neg]; ring_nf
  have i3 : ((q : ℂ) * 2 - p)⁻¹ = -(-((q : ℂ) * 2) + p)⁻¹ := by rw [← inv_neg]; ring_nf
  have i4 : (-((q : ℂ) * 2) - p)⁻¹ = -((q : ℂ) * 2 + p)⁻¹ := by rw [← inv_neg]; ring_nf
  first | ring1 | (ring_nf; try simp only [i1, i2, i3, i4]; ring1)

theorem even_p_thermal_zero_matsubara_d_i_m_m_t_i (q : ℝ) (p : ℝ) (m1 : ℝ) (m2 : ℝ) (beta : ℝ) :
    thermal.zero_matsubara.d_i_m_m_t_i q (-p) m1 m2 beta = thermal.zero_matsubara.d_i_m_m_t_i q p m1 m2 beta := by
  rw [toC_thermal_zero_matsubara_d_i_m_m_t_i q (-p) m1 m2 beta, toC_thermal_zero_matsubara_d_i_m_m_t_i q p m1 m2 beta]
  simp only [thermal.zero_matsubara.d_i_m_m_t_i, r_0_eq, r_0_same_mass_eq, tlog_eq, tlog_same_mass_eq, tlog_zero_mass_eq, tlog_l_eq, tlog_l_same_mass_eq, tlog_l_zero_mass_eq, tlog_t_eq, tlog_t_same_mass_eq, tlog_t_zero_mass_eq, zm_r_0_eq, zm_r_0_same_mass_eq, z0_r_0_C, z0_r_0_eq, z0_tlog_eq, z0_tlog_t_eq, toC_complex, toC_real, ofR_complex, ofR_real, toC_ofR, toC_zero, toC_energy, toC_bose, map_mul, map_add, map_neg, map_sub, map_inv₀, map_div₀]
  try push_cast
  try simp only [z0_r_0_R, z0_tlog_same_mass_eq, z0_tlog_zero_mass_eq, z0_tlog_t_same_mass_eq, z0_tlog_t_zero_mass_eq, ofReal_energy, ofReal_bose]
  try simp only [Complex.ofReal_neg, ZL_neg_p, Complex.sub_im, Complex.mul_im, Complex.neg_im, Complex.ofReal_im, Complex.zero_im, mul_zero, zero_mul, add_zero, sub_zero, neg_zero]
  have i1 : (-(p : ℂ) + q * 2)⁻¹ = -((p : ℂ) - q * 2)⁻¹ := by rw [← inv_neg]; ring_nf
  have i2 : (-(p : ℂ) - q * 2)⁻¹ = -((p : ℂ) + q * 2)⁻¹ := by rw [← inv_neg]; ring_nf
  have i3 : ((q : ℂ) * 2 - p)⁻¹ = -(-((q : ℂ) * 2) + p)⁻¹ := by rw [← inv_neg]; ring_nf
  have i4 : (-((q : ℂ) * 2) - p)⁻¹ = -((q : ℂ) * 2 + p)⁻¹ := by rw [← inv_neg]; ring_nf
  first | ring1 | (ring_nf; try simp only [i1, i2, i3, i4]; ring1)

theorem even_p_thermal_zero_matsubara_d_i_m_m_t_i_same_mass (q : ℝ) (p : ℝ) (m : ℝ) (beta : ℝ) :
    thermal.zero_matsubara.d_i_m_m_t_i_same_mass q (-p) m beta = thermal.zero_matsubara.d_i_m_m_t_i_same_mass q p m beta := by
  apply Complex.ofReal_injective
  simp only [thermal.zero_matsubara.d_i_m_m_t_i_same_mass, r_0_eq, r_0_same_mass_eq, tlog_eq, tlog_same_mass_eq, tlog_zero_mass_eq, tlog_l_eq, tlog_l_same_mass_eq, tlog_l_zero_mass_eq, tlog_t_eq, tlog_t_same_mass_eq, tlog_t_zero_mass_eq, zm_r_0_eq, zm_r_0_same_mass_eq, z0_r_0_C, z0_r_0_eq, z0_tlog_eq, z0_tlog_t_eq, toC_complex, toC_real, ofR_complex, ofR_real, toC_ofR, toC_zero, toC_energy, toC_bose, map_mul, map_add, map_neg, map_sub, map_inv₀, map_div₀]
  try push_cast
  try simp only [z0_r_0_R, z0_tlog_same_mass_eq, z0_tlog_zero_mass_eq, z0_tlog_t_same_mass_eq, z0_tlog_t_zero_mass_eq, ofReal_energy, ofReal_bose]
  try simp only [Complex.ofReal_neg, ZL_neg_p, Complex.sub_im, Complex.mul_im, Complex.neg_im, Complex.ofReal_im, Complex.zero_im, mul_zero, zero_mul, add_zero, sub_zero, neg_zero]
  have i1 : (-(p : ℂ) + q * 2)⁻¹ = -((p : ℂ) - q * 2)⁻¹ := by rw [← inv_neg]; ring_nf
  have i2 : (-(p : ℂ) - q * 2)⁻¹ = -((p : ℂ) + q * 2)⁻¹ := by rw [← inv_neg]; ring_nf
  have i3 : ((q : ℂ) * 2 - p)⁻¹ = -(-((q : ℂ) * 2) + p)⁻¹ := by rw [← inv_neg]; ring_nf
  have i4 : (-((q : ℂ) * 2) - p)⁻¹ = -((q : ℂ) * 2 + p)⁻¹ := by rw [← inv_neg]; ring_nf
  first | ring1 | (ring_nf; try simp only [i1, i2, i3, i4]; ring1)

theorem even_p_thermal_zero_matsubara_d_i_m_0_t_i (q : ℝ) (p : ℝ) (m : ℝ) (beta : ℝ) :
    thermal.zero_matsubara.d_i_m_0_t_i q (-p) m beta = thermal.zero_matsubara.d_i_m_0_t_i q p m beta := by
  rw [toC_thermal_zero_matsubara_d_i_m_0_t_i q (-p) m beta, toC_thermal_zero_matsubara_d_i_m_0_t_i q p m beta]
  simp only [thermal.zero_matsubara.d_i_m_0_t_i, r_0_eq, r_0_same_mass_eq, tlog_eq, tlog_same_mass_eq, tlog_zero_mass_eq, tlog_l_eq, tlog_l_same_mass_eq, tlog_l_zero_mass_eq, tlog_t_eq, tlog_t_same_mass_eq, tlog_t_zero_mass_eq, zm_r_0_eq, zm_r_0_same_mass_eq, z0_r_0_C, z0_r_0_eq, z0_tlog_eq, z0_tlog_t_eq, toC_complex, toC_real, ofR_complex, ofR_real, toC_ofR, toC_zero, toC_energy, toC_bose, map_mul, map_add, map_neg, map_sub, map_inv₀, map_div₀]
  try push_cast
  try simp only [z0_r_0_R, z0_tlog_same_mass_eq, z0_tlog_zero_mass_eq, z0_tlog_t_same_mass_eq, z0_tlog_t_zero_mass_eq, ofReal_energy, ofReal_bose]
  try simp only [Complex.ofReal_neg, ZL_neg_p, Complex.sub_im, Complex.mul_im, Complex.neg_im, Complex.ofReal_im, Complex.zero_im, mul_zero, zero_mul, add_zero, sub_zero, neg_zero]
  have i1 : (-(p : ℂ) + q * 2)⁻¹ = -((p : ℂ) - q * 2)⁻¹ := by rw [← inv_neg]; ring_nf
  have i2 : (-(p : ℂ) - q * 2)⁻¹ = -((p : ℂ) + q * 2)⁻¹ := by rw [← inv_neg]; ring_nf
  have i3 : ((q : ℂ) * 2 - p)⁻¹ = -(-((q : ℂ) * 2) + p)⁻¹ := by rw [← inv_neg]; ring_nf
  have i4 : (-((q : ℂ) * 2) - p)⁻¹ = -((q : ℂ) * 2 + p)⁻¹ := by rw [← inv_neg]; ring_nf
  first | ring1 | (ring_nf; try simp only [i1, i2, i3, i4]; ring1)

theorem even_p_thermal_zero_matsubara_d_i_0_0_t_i (q : ℝ) (p : ℝ) (beta : ℝ) :
    thermal.zero_matsubara.d_i_0_0_t_i q (-p) beta = thermal.zero_matsubara.d_i_0_0_t_i q p beta := by
  apply Complex.ofReal_injective
  simp only [thermal.zero_matsubara.d_i_0_0_t_i, r_0_eq, r_0_same_mass_eq, tlog_eq, tlog_same_mass_eq, tlog_zero_mass_eq, tlog_l_eq, tlog_l_same_mass_eq, tlog_l_zero_mass_eq, tlog_t_eq, tlog_t_same_mass_eq, tlog_t_zero_mass_eq, zm_r_0_eq, zm_r_0_same_mass_eq, z0_r_0_C, z0_r_0_eq, z0_tlog_eq, z0_tlog_t_eq, toC_complex, toC_real, ofR_complex, ofR_real, toC_ofR, toC_zero, toC_energy, toC_bose, map_mul, map_add, map_neg, map_sub, map_inv₀, map_div₀]
  try push_cast
  try simp only [z0_r_0_R, z0_tlog_same_mass_eq, z0_tlog_zero_mass_eq, z0_tlog_t_same_mass_eq, z0_tlog_t_zero_mass_eq, ofReal_energy, ofReal_bose]
  try simp only [Complex.ofReal_neg, ZL_neg_p, Complex.sub_im, Complex.mul_im, Complex.neg_im, Complex.ofReal_im, Complex.zero_im, mul_zero, zero_mul, add_zero, sub_zero, neg_zero]
  have i1 : (-(p : ℂ) + q * 2)⁻¹ = -((p : ℂ) - q * 2)⁻¹ := by rw [← inv_neg]; ring_nf
  have i2 : (-(p : ℂ) - q * 2)⁻¹ = -((p : ℂ) + q * 2)⁻¹ := by rw [← inv_neg]; ring_nf
  have i3 : ((q : ℂ) * 2 - p)⁻¹ = -(-((q : ℂ) * 2) + p)⁻¹ := by rw [← inv_neg]; ring_nf
  have i4 : (-((q : ℂ) * 2) - p)⁻¹ = -((q : ℂ) * 2 + p)⁻¹ := by rw [← inv_neg]; ring_nf
  first | ring1 | (ring_nf; try simp only [i1, i2, i3, i4]; ring1)

theorem even_p_ghost_thermal_self_energy_thermal_part_landau_i (q : ℝ) (om : ℂ) (p : ℝ) (m : ℝ) (beta : ℝ) (h_m : InStrip om (energy q m)) (h_0 : InStrip om q) :
    ghost.thermal.self_energy_thermal_part_landau_i q om (-p) m beta = ghost.thermal.self_energy_thermal_part_landau_i q om p m beta := by
  simp only [ghost.thermal.self_energy_thermal_part_landau_i, even_p_thermal_i_m_m_i_same_mass q om p m beta h_m, even_p_thermal_i_m_0_i q om p m beta h_m h_0, even_p_thermal_i_0_0_i q om p beta h_0, even_p_thermal_i_m_m_l_i_same_mass q om p m beta h_m, even_p_thermal_i_m_0_l_i q om p m beta h_m h_0, even_p_thermal_i_0_0_l_i q om p beta h_0, even_p_thermal_i_m_m_t_i_same_mass q om p m beta h_m, even_p_thermal_i_m_0_t_i q om p m beta h_m h_0, even_p_thermal_i_0_0_t_i q om p beta h_0, even_p_thermal_d_i_m_m_i_same_mass q om p m beta h_m, even_p_thermal_d_i_m_0_i q om p m beta h_m h_0, even_p_thermal_d_i_0_0_i q om p beta h_0, even_p_thermal_d_i_m_m_l_i_same_mass q om p m beta h_m, even_p_thermal_d_i_m_0_l_i q om p m beta h_m h_0, even_p_thermal_d_i_0_0_l_i q om p beta h_0, even_p_thermal_d_i_m_m_t_i_same_mass q om p m beta h_m, even_p_thermal_d_i_m_0_t_i q om p m beta h_m h_0, even_p_thermal_d_i_0_0_t_i q om p beta h_0, neg_mul_neg]

theorem even_p_ghost_thermal_zero_matsubara_self_energy_thermal_part_landau_i (q : ℝ) (p : ℝ) (m : ℝ) (beta : ℝ) :
    ghost.thermal.zero_matsubara.self_energy_thermal_part_landau_i q (-p) m beta = ghost.thermal.zero_matsubara.self_energy_thermal_part_landau_i q p m beta := by
  simp only [ghost.thermal.zero_matsubara.self_energy_thermal_part_landau_i, even_p_thermal_zero_matsubara_i_m_m_i_same_mass q p m beta, even_p_thermal_zero_matsubara_i_m_0_i q p m beta, even_p_thermal_zero_matsubara_i_0_0_i q p beta, even_p_thermal_zero_matsubara_i_m_m_l_i_same_mass q p m beta, even_p_thermal_zero_matsubara_i_m_0_l_i q p m beta, even_p_thermal_zero_matsubara_i_0_0_l_i q p beta, even_p_thermal_zero_matsubara_i_m_m_t_i_same_mass q p m beta, even_p_thermal_zero_matsubara_i_m_0_t_i q p m beta, even_p_thermal_zero_matsubara_i_0_0_t_i q p beta, even_p_thermal_zero_matsubara_d_i_m_m_i_same_mass q p m beta, even_p_thermal_zero_matsubara_d_i_m_0_i q p m beta, even_p_thermal_zero_matsubara_d_i_0_0_i q p beta, even_p_thermal_zero_matsubara_d_i_m_m_l_i_same_mass q p m beta, even_p_thermal_zero_matsubara_d_i_m_0_l_i q p m beta, even_p_thermal_zero_matsubara_d_i_0_0_l_i q p beta, even_p_thermal_zero_matsubara_d_i_m_m_t_i_same_mass q p m beta, even_p_thermal_zero_matsubara_d_i_m_0_t_i q p m beta, even_p_thermal_zero_matsubara_d_i_0_0_t_i q p beta, neg_mul_neg]

theorem even_p_gluon_thermal_polarization_glue_l_thermal_part_landau_i (q : ℝ) (om : ℂ) (p : ℝ) (m : ℝ) (beta : ℝ) (h_m : InStrip om (energy q m)) (h_0 : InStrip om q) :
    gluon.thermal.polarization_glue_l_thermal_part_landau_i q om (-p) m beta = gluon.thermal.polarization_glue_l_thermal_part_landau_i q om p m beta := by
  simp only [gluon.thermal.polarization_glue_l_thermal_part_landau_i, even_p_thermal_i_m_m_i_same_mass q om p m beta h_m, even_p_thermal_i_m_0_i q om p m beta h_m h_0, even_p_thermal_i_0_0_i q om p beta h_0, even_p_thermal_i_m_m_l_i_same_mass q om p m beta h_m, even_p_thermal_i_m_0_l_i q om p m beta h_m h_0, even_p_thermal_i_0_0_l_i q om p beta h_0, even_p_thermal_i_m_m_t_i_same_mass q om p m beta h_m, even_p_thermal_i_m_0_t_i q om p m beta h_m h_0, even_p_thermal_i_0_0_t_i q om p beta h_0, even_p_thermal_d_i_m_m_i_same_mass q om p m beta h_m, even_p_thermal_d_i_m_0_i q om p m beta h_m h_0, even_p_thermal_d_i_0_0_i q om p beta h_0, even_p_thermal_d_i_m_m_l_i_same_mass q om p m beta h_m, even_p_thermal_d_i_m_0_l_i q om p m beta h_m h_0, even_p_thermal_d_i_0_0_l_i q om p beta h_0, even_p_thermal_d_i_m_m_t_i_same_mass q om p m beta h_m, even_p_thermal_d_i_m_0_t_i q om p m beta h_m h_0, even_p_thermal_d_i_0_0_t_i q om p beta h_0, neg_mul_neg]

theorem even_p_gluon_thermal_polarization_glue_t_thermal_part_landau_i (q : ℝ) (om : ℂ) (p : ℝ) (m : ℝ) (beta : ℝ) (h_m : InStrip om (energy q m)) (h_0 : InStrip om q) :
    gluon.thermal.polarization_glue_t_thermal_part_landau_i q om (-p) m beta = gluon.thermal.polarization_glue_t_thermal_part_landau_i q om p m beta := by
  simp only [gluon.thermal.polarization_glue_t_thermal_part_landau_i, even_p_thermal_i_m_m_i_same_mass q om p m beta h_m, even_p_thermal_i_m_0_i q om p m beta h_m h_0, even_p_thermal_i_0_0_i q om p beta h_0, even_p_thermal_i_m_m_l_i_same_mass q om p m beta h_m, even_p_thermal_i_m_0_l_i q om p m beta h_m h_0, even_p_thermal_i_0_0_l_i q om p beta h_0, even_p_thermal_i_m_m_t_i_same_mass q om p m beta h_m, even_p_thermal_i_m_0_t_i q om p m beta h_m h_0, even_p_thermal_i_0_0_t_i q om p beta h_0, even_p_thermal_d_i_m_m_i_same_mass q om p m beta h_m, even_p_thermal_d_i_m_0_i q om p m beta h_m h_0, even_p_thermal_d_i_0_0_i q om p beta h_0, even_p_thermal_d_i_m_m_l_i_same_mass q om p m beta h_m, even_p_thermal_d_i_m_0_l_i q om p m beta h_m h_0, even_p_thermal_d_i_0_0_l_i q om p beta h_0, even_p_thermal_d_i_m_m_t_i_same_mass q om p m beta h_m, even_p_thermal_d_i_m_0_t_i q om p m beta h_m h_0, even_p_thermal_d_i_0_0_t_i q om p beta h_0, neg_mul_neg]

theorem even_p_gluon_thermal_polarization_quark_l_thermal_part_landau_i (k : Consts ℝ) (q : ℝ) (om : ℂ) (p : ℝ) (mq : ℝ) (beta : ℝ) (mu : ℝ) (h_mq : InStrip om (energy q mq)) :
    gluon.thermal.polarization_quark_l_thermal_part_landau_i k q om (-p) mq beta mu = gluon.thermal.polarization_quark_l_thermal_part_landau_i k q om p mq beta mu := by
  have e_mq : ∀ d : ℂ, d.im = 0 → TL q om (-(p : ℂ)) (energy q (mq : ℂ)) d = -TL q om p (energy q (mq : ℂ)) d :=
    fun d hd => TL_neg_p (h_mq.R0 p (energy_re q mq) (energy_im q mq) hd)
  have en_mq : ∀ d : ℂ, d.im = 0 → TL q (-om) (-(p : ℂ)) (energy q (mq : ℂ)) d = -TL q (-om) p (energy q (mq : ℂ)) d :=
    fun d hd => TL_neg_p (h_mq.neg.R0 p (energy_re q mq) (energy_im q mq) hd)
  rw [toC_gluon_thermal_polarization_quark_l_thermal_part_landau_i k q om (-p) mq beta mu, toC_gluon_thermal_polarization_quark_l_thermal_part_landau_i k q om p mq beta mu]
  simp only [gluon.thermal.polarization_quark_l_thermal_part_landau_i, r_0_eq, r_0_same_mass_eq, tlog_eq, tlog_same_mass_eq, tlog_zero_mass_eq, tlog_l_eq, tlog_l_same_mass_eq, tlog_l_zero_mass_eq, tlog_t_eq, tlog_t_same_mass_eq, tlog_t_zero_mass_eq, zm_r_0_eq, zm_r_0_same_mass_eq, z0_r_0_C, z0_r_0_eq, z0_tlog_eq, z0_tlog_t_eq, toC_complex, toC_real, ofR_complex, ofR_real, toC_ofR, toC_zero, toC_energy, toC_bose, map_mul, map_add, map_neg, map_sub, map_inv₀, map_div₀]
  try push_cast
  try simp only [ofReal_energy, ofReal_bose]
  simp only [e_mq, en_mq, R0_neg_p, PF_neg_p, Complex.sub_im, Complex.mul_im, Complex.neg_im, Complex.ofReal_im, Complex.zero_im, mul_zero, zero_mul, add_zero, sub_zero, neg_zero]
  try simp only [mul_inv, inv_neg]
  ring

theorem even_p_gluon_thermal_polarization_quark_t_thermal_part_landau_i (k : Consts ℝ) (q : ℝ) (om : ℂ) (p : ℝ) (mq : ℝ) (beta : ℝ) (mu : ℝ) (h_mq : InStrip om (energy q mq)) :
    gluon.thermal.polarization_quark_t_thermal_part_landau_i k q om (-p) mq beta mu = gluon.thermal.polarization_quark_t_thermal_part_landau_i k q om p mq beta mu := by
  have e_mq : ∀ d : ℂ, d.im = 0 → TL q om (-(p : ℂ)) (energy q (mq : ℂ)) d = -TL q om p (energy q (mq : ℂ)) d :=
    fun d hd => TL_neg_p (h_mq.R0 p (energy_re q mq) (energy_im q mq) hd)
  have en_mq : ∀ d : ℂ, d.im = 0 → TL q (-om) (-(p : ℂ)) (energy q (mq : ℂ)) d = -TL q (-om) p (energy q (mq : ℂ)) d :=
    fun d hd => TL_neg_p (h_mq.neg.R0 p (energy_re q mq) (energy_im q mq) hd)
  rw [toC_gluon_thermal_polarization_quark_t_thermal_part_landau_i k q om (-p) mq beta mu, toC_gluon_thermal_polarization_quark_t_thermal_part_landau_i k q om p mq beta mu]
  simp only [gluon.thermal.polarization_quark_t_thermal_part_landau_i, r_0_eq, r_0_same_mass_eq, tlog_eq, tlog_same_mass_eq, tlog_zero_mass_eq, tlog_l_eq, tlog_l_same_mass_eq, tlog_l_zero_mass_eq, tlog_t_eq, tlog_t_same_mass_eq, tlog_t_zero_mass_eq, zm_r_0_eq, zm_r_0_same_mass_eq, z0_r_0_C, z0_r_0_eq, z0_tlog_eq, z0_tlog_t_eq, toC_complex, toC_real, ofR_complex, ofR_real, toC_ofR, toC_zero, toC_energy, toC_bose, map_mul, map_add, map_neg, map_sub, map_inv₀, map_div₀]
  try push_cast
  try simp only [ofReal_energy, ofReal_bose]
  simp only [e_mq, en_mq, R0_neg_p, PF_neg_p, Complex.sub_im, Complex.mul_im, Complex.neg_im, Complex.ofReal_im, Complex.zero_im, mul_zero, zero_mul, add_zero, sub_zero, neg_zero]
  try simp only [mul_inv, inv_neg]
  ring

theorem even_p_gluon_thermal_polarization_quark_l_thermal_part_zero_temp_landau_i (k : Consts ℝ) (q : ℝ) (om : ℂ) (p : ℝ) (mq : ℝ) (mu : ℝ) (h_mq : InStrip om (energy q mq)) :
    gluon.thermal.polarization_quark_l_thermal_part_zero_temp_landau_i k q om (-p) mq mu = gluon.thermal.polarization_quark_l_thermal_part_zero_temp_landau_i k q om p mq mu := by
  have e_mq : ∀ d : ℂ, d.im = 0 → TL q om (-(p : ℂ)) (energy q (mq : ℂ)) d = -TL q om p (energy q (mq : ℂ)) d :=
    fun d hd => TL_neg_p (h_mq.R0 p (energy_re q mq) (energy_im q mq) hd)
  have en_mq : ∀ d : ℂ, d.im = 0 → TL q (-om) (-(p : ℂ)) (energy q (mq : ℂ)) d = -TL q (-om) p (energy q (mq : ℂ)) d :=
    fun d hd => TL_neg_p (h_mq.neg.R0 p (energy_re q mq) (energy_im q mq) hd)
  rw [toC_gluon_thermal_polarization_quark_l_thermal_part_zero_temp_landau_i k q om (-p) mq mu, toC_gluon_thermal_polarization_quark_l_thermal_part_zero_temp_landau_i k q om p mq mu]
  simp only [gluon.thermal.polarization_quark_l_thermal_part_zero_temp_landau_i, r_0_eq, r_0_same_mass_eq, tlog_eq, tlog_same_mass_eq, tlog_zero_mass_eq, tlog_l_eq, tlog_l_same_mass_eq, tlog_l_zero_mass_eq, tlog_t_eq, tlog_t_same_mass_eq, tlog_t_zero_mass_eq, zm_r_0_eq, zm_r_0_same_mass_eq, z0_r_0_C, z0_r_0_eq, z0_tlog_eq, z0_tlog_t_eq, toC_complex, toC_real, ofR_complex, ofR_real, toC_ofR, toC_zero, toC_energy, toC_bose, map_mul, map_add, map_neg, map_sub, map_inv₀, map_div₀]
  try push_cast
  try simp only [ofReal_energy, ofReal_bose]
  simp only [e_mq, en_mq, R0_neg_p, PF_neg_p, Complex.sub_im, Complex.mul_im, Complex.neg_im, Complex.ofReal_im, Complex.zero_im, mul_zero, zero_mul, add_zero, sub_zero, neg_zero]
  try simp only [mul_inv, inv_neg]
  ring

theorem even_p_gluon_thermal_polarization_quark_t_thermal_part_zero_temp_landau_i (k : Consts ℝ) (q : ℝ) (om : ℂ) (p : ℝ) (mq : ℝ) (mu : ℝ) (h_mq : InStrip om (energy q mq)) :
    gluon.thermal.polarization_quark_t_thermal_part_zero_temp_landau_i k q om (-p) mq mu = gluon.thermal.polarization_quark_t_thermal_part_zero_temp_landau_i k q om p mq mu := by
  have e_mq : ∀ d : ℂ, d.im = 0 → TL q om (-(p : ℂ)) (energy q (mq : ℂ)) d = -TL q om p (energy q (mq : ℂ)) d :=
    fun d hd => TL_neg_p (h_mq.R0 p (energy_re q mq) (energy_im q mq) hd)
  have en_mq : ∀ d : ℂ, d.im = 0 → TL q (-om) (-(p : ℂ)) (energy q (mq : ℂ)) d = -TL q (-om) p (energy q (mq : ℂ)) d :=
    fun d hd => TL_neg_p (h_mq.neg.R0 p (energy_re q mq) (energy_im q mq) hd)
  rw [toC_gluon_thermal_polarization_quark_t_thermal_part_zero_temp_landau_i k q om (-p) mq mu, toC_gluon_thermal_polarization_quark_t_thermal_part_zero_temp_landau_i k q om p mq mu]
  simp only [gluon.thermal.polarization_quark_t_thermal_part_zero_temp_landau_i, r_0_eq, r_0_same_mass_eq, tlog_eq, tlog_same_mass_eq, tlog_zero_mass_eq, tlog_l_eq, tlog_l_same_mass_eq, tlog_l_zero_mass_eq, tlog_t_eq, tlog_t_same_mass_eq, tlog_t_zero_mass_eq, zm_r_0_eq, zm_r_0_same_mass_eq, z0_r_0_C, z0_r_0_eq, z0_tlog_eq, z0_tlog_t_eq, toC_complex, toC_real, ofR_complex, ofR_real, toC_ofR, toC_zero, toC_energy, toC_bose, map_mul, map_add, map_neg, map_sub, map_inv₀, map_div₀]
  try push_cast
  try simp only [ofReal_energy, ofReal_bose]
  simp only [e_mq, en_mq, R0_neg_p, PF_neg_p, Complex.sub_im, Complex.mul_im, Complex.neg_im, Complex.ofReal_im, Complex.zero_im, mul_zero, zero_mul, add_zero, sub_zero, neg_zero]
  try simp only [mul_inv, inv_neg]
  ring

theorem even_p_gluon_thermal_zero_matsubara_polarization_glue_l_thermal_part_landau_i (q : ℝ) (p : ℝ) (m : ℝ) (beta : ℝ) :
    gluon.thermal.zero_matsubara.polarization_glue_l_thermal_part_landau_i q (-p) m beta = gluon.thermal.zero_matsubara.polarization_glue_l_thermal_part_landau_i q p m beta := by
  simp only [gluon.thermal.zero_matsubara.polarization_glue_l_thermal_part_landau_i, even_p_thermal_zero_matsubara_i_m_m_i_same_mass q p m beta, even_p_thermal_zero_matsubara_i_m_0_i q p m beta, even_p_thermal_zero_matsubara_i_0_0_i q p beta, even_p_thermal_zero_matsubara_i_m_m_l_i_same_mass q p m beta, even_p_thermal_zero_matsubara_i_m_0_l_i q p m beta, even_p_thermal_zero_matsubara_i_0_0_l_i q p beta, even_p_thermal_zero_matsubara_i_m_m_t_i_same_mass q p m beta, even_p_thermal_zero_matsubara_i_m_0_t_i q p m beta, even_p_thermal_zero_matsubara_i_0_0_t_i q p beta, even_p_thermal_zero_matsubara_d_i_m_m_i_same_mass q p m beta, even_p_thermal_zero_matsubara_d_i_m_0_i q p m beta, even_p_thermal_zero_matsubara_d_i_0_0_i q p beta, even_p_thermal_zero_matsubara_d_i_m_m_l_i_same_mass q p m beta, even_p_thermal_zero_matsubara_d_i_m_0_l_i q p m beta, even_p_thermal_zero_matsubara_d_i_0_0_l_i q p beta, even_p_thermal_zero_matsubara_d_i_m_m_t_i_same_mass q p m beta, even_p_thermal_zero_matsubara_d_i_m_0_t_i q p m beta, even_p_thermal_zero_matsubara_d_i_0_0_t_i q p beta, neg_mul_neg]

theorem even_p_gluon_thermal_zero_matsubara_polarization_glue_t_thermal_part_landau_i (q : ℝ) (p : ℝ) (m : ℝ) (beta : ℝ) :
    gluon.thermal.zero_matsubara.polarization_glue_t_thermal_part_landau_i q (-p) m beta = gluon.thermal.zero_matsubara.polarization_glue_t_thermal_part_landau_i q p m beta := by
  simp only [gluon.thermal.zero_matsubara.polarization_glue_t_thermal_part_landau_i, even_p_thermal_zero_matsubara_i_m_m_i_same_mass q p m beta, even_p_thermal_zero_matsubara_i_m_0_i q p m beta, even_p_thermal_zero_matsubara_i_0_0_i q p beta, even_p_thermal_zero_matsubara_i_m_m_l_i_same_mass q p m beta, even_p_thermal_zero_matsubara_i_m_0_l_i q p m beta, even_p_thermal_zero_matsubara_i_0_0_l_i q p beta, even_p_thermal_zero_matsubara_i_m_m_t_i_same_mass q p m beta, even_p_thermal_zero_matsubara_i_m_0_t_i q p m beta, even_p_thermal_zero_matsubara_i_0_0_t_i q p beta, even_p_thermal_zero_matsubara_d_i_m_m_i_same_mass q p m beta, even_p_thermal_zero_matsubara_d_i_m_0_i q p m beta, even_p_thermal_zero_matsubara_d_i_0_0_i q p beta, even_p_thermal_zero_matsubara_d_i_m_m_l_i_same_mass q p m beta, even_p_thermal_zero_matsubara_d_i_m_0_l_i q p m beta, even_p_thermal_zero_matsubara_d_i_0_0_l_i q p beta, even_p_thermal_zero_matsubara_d_i_m_m_t_i_same_mass q p m beta, even_p_thermal_zero_matsubara_d_i_m_0_t_i q p m beta, even_p_thermal_zero_matsubara_d_i_0_0_t_i q p beta, neg_mul_neg]

theorem even_p_gluon_thermal_zero_matsubara_polarization_quark_l_thermal_part_landau_i (k : Consts ℝ) (q : ℝ) (p : ℝ) (mq : ℝ) (beta : ℝ) (mu : ℝ) :
    gluon.thermal.zero_matsubara.polarization_quark_l_thermal_part_landau_i k q (-p) mq beta mu = gluon.thermal.zero_matsubara.polarization_quark_l_thermal_part_landau_i k q p mq beta mu := by
  apply Complex.ofReal_injective
  simp only [gluon.thermal.zero_matsubara.polarization_quark_l_thermal_part_landau_i, r_0_eq, r_0_same_mass_eq, tlog_eq, tlog_same_mass_eq, tlog_zero_mass_eq, tlog_l_eq, tlog_l_same_mass_eq, tlog_l_zero_mass_eq, tlog_t_eq, tlog_t_same_mass_eq, tlog_t_zero_mass_eq, zm_r_0_eq, zm_r_0_same_mass_eq, z0_r_0_C, z0_r_0_eq, z0_tlog_eq, z0_tlog_t_eq, toC_complex, toC_real, ofR_complex, ofR_real, toC_ofR, toC_zero, toC_energy, toC_bose, map_mul, map_add, map_neg, map_sub, map_inv₀, map_div₀]
  try push_cast
  try simp only [z0_r_0_R, z0_tlog_same_mass_eq, z0_tlog_zero_mass_eq, z0_tlog_t_same_mass_eq, z0_tlog_t_zero_mass_eq, ofReal_energy, ofReal_bose]
  try simp only [Complex.ofReal_neg, ZL_neg_p, Complex.sub_im, Complex.mul_im, Complex.neg_im, Complex.ofReal_im, Complex.zero_im, mul_zero, zero_mul, add_zero, sub_zero, neg_zero]
  have i1 : (-(p : ℂ) + q * 2)⁻¹ = -((p : ℂ) - q * 2)⁻¹ := by rw [← inv_neg]; ring_nf
  have i2 : (-(p : ℂ) - q * 2)⁻¹ = -((p : ℂ) + q * 2)⁻¹ := by rw [← inv_neg]; ring_nf
  have i3 : ((q : ℂ) * 2 - p)⁻¹ = -(-((q : ℂ) * 2) + p)⁻¹ := by rw [← inv_neg]; ring_nf
  have i4 : (-((q : ℂ) * 2) - p)⁻¹ = -((q : ℂ) * 2 + p)⁻¹ := by rw [← inv_neg]; ring_nf
  first | ring1 | (ring_nf; try simp only [i1, i2, i3, i4]; ring1)

theorem even_p_gluon_thermal_zero_matsubara_polarization_quark_t_thermal_part_landau_i (k : Consts ℝ) (q : ℝ) (p : ℝ) (mq : ℝ) (beta : ℝ) (mu : ℝ) :
    gluon.thermal.zero_matsubara.polarization_quark_t_thermal_part_landau_i k q (-p) mq beta mu = gluon.thermal.zero_matsubara.polarization_quark_t_thermal_part_landau_i k q p mq beta mu := by
  apply Complex.ofReal_injective
  simp only [gluon.thermal.zero_matsubara.polarization_quark_t_thermal_part_landau_i, r_0_eq, r_0_same_mass_eq, tlog_eq, tlog_same_mass_eq, tlog_zero_mass_eq, tlog_l_eq, tlog_l_same_mass_eq, tlog_l_zero_mass_eq, tlog_t_eq, tlog_t_same_mass_eq, tlog_t_zero_mass_eq, zm_r_0_eq, zm_r_0_same_mass_eq, z0_r_0_C, z0_r_0_eq, z0_tlog_eq, z0_tlog_t_eq, toC_complex, toC_real, ofR_complex, ofR_real, toC_ofR, toC_zero, toC_energy, toC_bose, map_mul, map_add, map_neg, map_sub, map_inv₀, map_div₀]
  try push_cast
  try simp only [z0_r_0_R, z0_tlog_same_mass_eq, z0_tlog_zero_mass_eq, z0_tlog_t_same_mass_eq, z0_tlog_t_zero_mass_eq, ofReal_energy, ofReal_bose]
  try simp only [Complex.ofReal_neg, ZL_neg_p, Complex.sub_im, Complex.mul_im, Complex.neg_im, Complex.ofReal_im, Complex.zero_im, mul_zero, zero_mul, add_zero, sub_zero, neg_zero]
  have i1 : (-(p : ℂ) + q * 2)⁻¹ = -((p : ℂ) - q * 2)⁻¹ := by rw [← inv_neg]; ring_nf
  have i2 : (-(p : ℂ) - q * 2)⁻¹ = -((p : ℂ) + q * 2)⁻¹ := by rw [← inv_neg]; ring_nf
  have i3 : ((q : ℂ) * 2 - p)⁻¹ = -(-((q : ℂ) * 2) + p)⁻¹ := by rw [← inv_neg]; ring_nf
  have i4 : (-((q : ℂ) * 2) - p)⁻¹ = -((q : ℂ) * 2 + p)⁻¹ := by rw [← inv_neg]; ring_nf
  first | ring1 | (ring_nf; try simp only [i1, i2, i3, i4]; ring1)

theorem even_p_gluon_thermal_zero_matsubara_polarization_quark_l_thermal_part_zero_temp_landau_i (k : Consts ℝ) (q : ℝ) (p : ℝ) (mq : ℝ) (mu : ℝ) :
    gluon.thermal.zero_matsubara.polarization_quark_l_thermal_part_zero_temp_landau_i k q (-p) mq mu = gluon.thermal.zero_matsubara.polarization_quark_l_thermal_part_zero_temp_landau_i k q p mq mu := by
  apply Complex.ofReal_injective
  simp only [gluon.thermal.zero_matsubara.polarization_quark_l_thermal_part_zero_temp_landau_i, r_0_eq, r_0_same_mass_eq, tlog_eq, tlog_same_mass_eq, tlog_zero_mass_eq, tlog_l_eq, tlog_l_same_mass_eq, tlog_l_zero_mass_eq, tlog_t_eq, tlog_t_same_mass_eq, tlog_t_zero_mass_eq, zm_r_0_eq, zm_r_0_same_mass_eq, z0_r_0_C, z0_r_0_eq, z0_tlog_eq, z0_tlog_t_eq, toC_complex, toC_real, ofR_complex, ofR_real, toC_ofR, toC_zero, toC_energy, toC_bose, map_mul, map_add, map_neg, map_sub, map_inv₀, map_div₀]
  try push_cast
  try simp only [z0_r_0_R, z0_tlog_same_mass_eq, z0_tlog_zero_mass_eq, z0_tlog_t_same_mass_eq, z0_tlog_t_zero_mass_eq, ofReal_energy, ofReal_bose]
  try simp only [Complex.ofReal_neg, ZL_neg_p, Complex.sub_im, Complex.mul_im, Complex.neg_im, Complex.ofReal_im, Complex.zero_im, mul_zero, zero_mul, add_zero, sub_zero, neg_zero]
  have i1 : (-(p : ℂ) + q * 2)⁻¹ = -((p : ℂ) - q * 2)⁻¹ := by rw [← inv_neg]; ring_nf
  have i2 : (-(p : ℂ) - q * 2)⁻¹ = -((p : ℂ) + q * 2)⁻¹ := by rw [← inv_neg]; ring_nf
  have i3 : ((q : ℂ) * 2 - p)⁻¹ = -(-((q : ℂ) * 2) + p)⁻¹ := by rw [← inv_neg]; ring_nf
  have i4 : (-((q : ℂ) * 2) - p)⁻¹ = -((q : ℂ) * 2 + p)⁻¹ := by rw [← inv_neg]; ring_nf
  first | ring1 | (ring_nf; try simp only [i1, i2, i3, i4]; ring1)

theorem even_p_gluon_thermal_zero_matsubara_polarization_quark_t_thermal_part_zero_temp_landau_i (k : Consts ℝ) (q : ℝ) (p : ℝ) (mq : ℝ) (mu : ℝ) :
    gluon.thermal.zero_matsubara.polarization_quark_t_thermal_part_zero_temp_landau_i k q (-p) mq mu = gluon.thermal.zero_matsubara.polarization_quark_t_thermal_part_zero_temp_landau_i k q p mq mu := by
  apply Complex.ofReal_injective
  simp only [gluon.thermal.zero_matsubara.polarization_quark_t_thermal_part_zero_temp_landau_i, r_0_eq, r_0_same_mass_eq, tlog_eq, tlog_same_mass_eq, tlog_zero_mass_eq, tlog_l_eq, tlog_l_same_mass_eq, tlog_l_zero_mass_eq, tlog_t_eq, tlog_t_same_mass_eq, tlog_t_zero_mass_eq, zm_r_0_eq, zm_r_0_same_mass_eq, z0_r_0_C, z0_r_0_eq, z0_tlog_eq, z0_tlog_t_eq, toC_complex, toC_real, ofR_complex, ofR_real, toC_ofR, toC_zero, toC_energy, toC_bose, map_mul, map_add, map_neg, map_sub, map_inv₀, map_div₀]
  try push_cast
  try simp only [z0_r_0_R, z0_tlog_same_mass_eq, z0_tlog_zero_mass_eq, z0_tlog_t_same_mass_eq, z0_tlog_t_zero_mass_eq, ofReal_energy, ofReal_bose]
  try simp only [Complex.ofReal_neg, ZL_neg_p, Complex.sub_im, Complex.mul_im, Complex.neg_im, Complex.ofReal_im, Complex.zero_im, mul_zero, zero_mul, add_zero, sub_zero, neg_zero]
  have i1 : (-(p : ℂ) + q * 2)⁻¹ = -((p : ℂ) - q * 2)⁻¹ := by rw [← inv_neg]; ring_nf
  have i2 : (-(p : ℂ) - q * 2)⁻¹ = -((p : ℂ) + q * 2)⁻¹ := by rw [← inv_neg]; ring_nf
  have i3 : ((q : ℂ) * 2 - p)⁻¹ = -(-((q : ℂ) * 2) + p)⁻¹ := by rw [← inv_neg]; ring_nf
  have i4 : (-((q : ℂ) * 2) - p)⁻¹ = -((q : ℂ) * 2 + p)⁻¹ := by rw [← inv_neg]; ring_nf
  first | ring1 | (ring_nf; try simp only [i1, i2, i3, i4]; ring1)

theorem conj_thermal_i_m_m_i (q : ℝ) (om : ℝ) (p : ℝ) (m1 : ℝ) (m2 : ℝ) (beta : ℝ) (hq : 0 < q) (hom : om ≠ 0) :
    (starRingEnd ℂ) (thermal.i_m_m_i q om p m1 m2 beta) = thermal.i_m_m_i q om p m1 m2 beta := by
  have hn : ∀ n : ℕ, [n.AtLeastTwo] → (starRingEnd ℂ) (OfNat.ofNat n : ℂ) = OfNat.ofNat n := fun n _ => map_ofNat _ n
  have t_m1 : ∀ d : ℂ, d.im = 0 → (starRingEnd ℂ) (TL q om p (energy q (m1 : ℂ)) d) = TL q (-(om : ℂ)) p (energy q (m1 : ℂ)) d :=
    fun d hd => TL_conj (energy_im q m1) hd ((InStrip.ofReal hom (energy_pos (m := m1) hq)).R0 p (energy_re q m1) (energy_im q m1) hd)
  have u_m1 : ∀ d : ℂ, d.im = 0 → (starRingEnd ℂ) (TL q (-(om : ℂ)) p (energy q (m1 : ℂ)) d) = TL q om p (energy q (m1 : ℂ)) d :=
    fun d hd => by rw [← t_m1 d hd, Complex.conj_conj]
  have R0t_m1 : ∀ d : ℂ, d.im = 0 → (starRingEnd ℂ) (R0 om p (energy q (m1 : ℂ)) d) = R0 (-(om : ℂ)) p (energy q (m1 : ℂ)) d :=
    fun d hd => R0_conj (energy_im q m1) hd
  have R0u_m1 : ∀ d : ℂ, d.im = 0 → (starRingEnd ℂ) (R0 (-(om : ℂ)) p (energy q (m1 : ℂ)) d) = R0 om p (energy q (m1 : ℂ)) d :=
    fun d hd => by rw [← R0t_m1 d hd, Complex.conj_conj]
  have PFt_m1 : ∀ d : ℂ, d.im = 0 → (starRingEnd ℂ) (PF om p (energy q (m1 : ℂ)) d) = PF (-(om : ℂ)) p (energy q (m1 : ℂ)) d :=
    fun d hd => PF_conj (energy_im q m1) hd
  have PFu_m1 : ∀ d : ℂ, d.im = 0 → (starRingEnd ℂ) (PF (-(om : ℂ)) p (energy q (m1 : ℂ)) d) = PF om p (energy q (m1 : ℂ)) d :=
    fun d hd => by rw [← PFt_m1 d hd, Complex.conj_conj]
  have t_m2 : ∀ d : ℂ, d.im = 0 → (starRingEnd ℂ) (TL q om p (energy q (m2 : ℂ)) d) = TL q (-(om : ℂ)) p (energy q (m2 : ℂ)) d :=
    fun d hd => TL_conj (energy_im q m2) hd ((InStrip.ofReal hom (energy_pos (m := m2) hq)).R0 p (energy_re q m2) (energy_im q m2) hd)
  have u_m2 : ∀ d : ℂ, d.im = 0 → (starRingEnd ℂ) (TL q (-(om : ℂ)) p (energy q (m2 : ℂ)) d) = TL q om p (energy q (m2 : ℂ)) d :=
    fun d hd => by rw [← t_m2 d hd, Complex.conj_conj]
  have R0t_m2 : ∀ d : ℂ, d.im = 0 → (starRingEnd ℂ) (R0 om p (energy q (m2 : ℂ)) d) = R0 (-(om : ℂ)) p (energy q (m2 : ℂ)) d :=
    fun d hd => R0_conj (energy_im q m2) hd
  have R0u_m2 : ∀ d : ℂ, d.im = 0 → (starRingEnd ℂ) (R0 (-(om : ℂ)) p (energy q (m2 : ℂ)) d) = R0 om p (energy q (m2 : ℂ)) d :=
    fun d hd => by rw [← R0t_m2 d hd, Complex.conj_conj]
  have PFt_m2 : ∀ d : ℂ, d.im = 0 → (starRingEnd ℂ) (PF om p (energy q (m2 : ℂ)) d) = PF (-(om : ℂ)) p (energy q (m2 : ℂ)) d :=
    fun d hd => PF_conj (energy_im q m2) hd
  have PFu_m2 : ∀ d : ℂ, d.im = 0 → (starRingEnd ℂ) (PF (-(om : ℂ)) p (energy q (m2 : ℂ)) d) = PF om p (energy q (m2 : ℂ)) d :=
    fun d hd => by rw [← PFt_m2 d hd, Complex.conj_conj]
  have t_0 : ∀ d : ℂ, d.im = 0 → (starRingEnd ℂ) (TL q om p (q : ℂ) d) = TL q (-(om : ℂ)) p (q : ℂ) d :=
    fun d hd => TL_conj (Complex.ofReal_im q) hd ((InStrip.ofReal hom hq).R0 p (Complex.ofReal_re q) (Complex.ofReal_im q) hd)
  have u_0 : ∀ d : ℂ, d.im = 0 → (starRingEnd ℂ) (TL q (-(om : ℂ)) p (q : ℂ) d) = TL q om p (q : ℂ) d :=
    fun d hd => by rw [← t_0 d hd, Complex.conj_conj]
  have R0t_0 : ∀ d : ℂ, d.im = 0 → (starRingEnd ℂ) (R0 om p (q : ℂ) d) = R0 (-(om : ℂ)) p (q : ℂ) d :=
    fun d hd => R0_conj (Complex.ofReal_im q) hd
  have R0u_0 : ∀ d : ℂ, d.im = 0 → (starRingEnd ℂ) (R0 (-(om : ℂ)) p (q : ℂ) d) = R0 om p (q : ℂ) d :=
    fun d hd => by rw [← R0t_0 d hd, Complex.conj_conj]
  have PFt_0 : ∀ d : ℂ, d.im = 0 → (starRingEnd ℂ) (PF om p (q : ℂ) d) = PF (-(om : ℂ)) p (q : ℂ) d :=
    fun d hd => PF_conj (Complex.ofReal_im q) hd
  have PFu_0 : ∀ d : ℂ, d.im = 0 → (starRingEnd ℂ) (PF (-(om : ℂ)) p (q : ℂ) d) = PF om p (q : ℂ) d :=
    fun d hd => by rw [← PFt_0 d hd, Complex.conj_conj]
  rw [toC_thermal_i_m_m_i q om p m1 m2 beta]
  simp only [thermal.i_m_m_i, r_0_eq, r_0_same_mass_eq, tlog_eq, tlog_same_mass_eq, tlog_zero_mass_eq, tlog_l_eq, tlog_l_same_mass_eq, tlog_l_zero_mass_eq, tlog_t_eq, tlog_t_same_mass_eq, tlog_t_zero_mass_eq, zm_r_0_eq, zm_r_0_same_mass_eq, z0_r_0_C, z0_r_0_eq, z0_tlog_eq, z0_tlog_t_eq, toC_complex, toC_real, ofR_complex, ofR_real, toC_ofR, toC_zero, toC_energy, toC_bose, map_mul, map_add, map_neg, map_sub, map_inv₀, map_div₀]
  try push_cast
  try simp only [z0_r_0_R, z0_tlog_same_mass_eq, z0_tlog_zero_mass_eq, z0_tlog_t_same_mass_eq, z0_tlog_t_zero_mass_eq, ofReal_energy, ofReal_bose]
  simp only [R0t_m1, R0u_m1, PFt_m1, PFu_m1, t_m1, u_m1, R0t_m2, R0u_m2, PFt_m2, PFu_m2, t_m2, u_m2, R0t_0, R0u_0, PFt_0, PFu_0, t_0, u_0, hn, ZL_conj, bose_energy_conj, bose_conj, energy_conj, Complex.conj_ofReal, Complex.conj_I, map_mul, map_add, map_neg, map_sub, map_inv₀, map_div₀, Complex.sub_im, Complex.mul_im, Complex.neg_im, Complex.ofReal_im, Complex.zero_im, mul_zero, zero_mul, add_zero, sub_zero, neg_zero, map_one, map_zero, map_natCast]
  try simp only [mul_inv, inv_neg]
  try ring

theorem conj_thermal_i_m_m_i_same_mass (q : ℝ) (om : ℝ) (p : ℝ) (m : ℝ) (beta : ℝ) (hq : 0 < q) (hom : om ≠ 0) :
    (starRingEnd ℂ) (thermal.i_m_m_i_same_mass q om p m beta) = thermal.i_m_m_i_same_mass q om p m beta := by
  have hn : ∀ n : ℕ, [n.AtLeastTwo] → (starRingEnd ℂ) (OfNat.ofNat n : ℂ) = OfNat.ofNat n := fun n _ => map_ofNat _ n
  have t_m : ∀ d : ℂ, d.im = 0 → (starRingEnd ℂ) (TL q om p (energy q (m : ℂ)) d) = TL q (-(om : ℂ)) p (energy q (m : ℂ)) d :=
    fun d hd => TL_conj (energy_im q m) hd ((InStrip.ofReal hom (energy_pos (m := m) hq)).R0 p (energy_re q m) (energy_im q m) hd)
  have u_m : ∀ d : ℂ, d.im = 0 → (starRingEnd ℂ) (TL q (-(om : ℂ)) p (energy q (m : ℂ)) d) = TL q om p (energy q (m : ℂ)) d :=
    fun d hd => by rw [← t_m d hd, Complex.conj_conj]
  have R0t_m : ∀ d : ℂ, d.im = 0 → (starRingEnd ℂ) (R0 om p (energy q (m : ℂ)) d) = R0 (-(om : ℂ)) p (energy q (m : ℂ)) d :=
    fun d hd => R0_conj (energy_im q m) hd
  have R0u_m : ∀ d : ℂ, d.im = 0 → (starRingEnd ℂ) (R0 (-(om : ℂ)) p (energy q (m : ℂ)) d) = R0 om p (energy q (m : ℂ)) d :=
    fun d hd => by rw [← R0t_m d hd, Complex.conj_conj]
  have PFt_m : ∀ d : ℂ, d.im = 0 → (starRingEnd ℂ) (PF om p (energy q (m : ℂ)) d) = PF (-(om : ℂ)) p (energy q (m : ℂ)) d :=
    fun d hd => PF_conj (energy_im q m) hd
  have PFu_m : ∀ d : ℂ, d.im = 0 → (starRingEnd ℂ) (PF (-(om : ℂ)) p (energy q (m : ℂ)) d) = PF om p (energy q (m : ℂ)) d :=
    fun d hd => by rw [← PFt_m d hd, Complex.conj_conj]
  have t_0 : ∀ d : ℂ, d.im = 0 → (starRingEnd ℂ) (TL q om p (q : ℂ) d) = TL q (-(om : ℂ)) p (q : ℂ) d :=
    fun d hd => TL_conj (Complex.ofReal_im q) hd ((InStrip.ofReal hom hq).R0 p (Complex.ofReal_re q) (Complex.ofReal_im q) hd)
  have u_0 : ∀ d : ℂ, d.im = 0 → (starRingEnd ℂ) (TL q (-(om : ℂ)) p (q : ℂ) d) = TL q om p (q : ℂ) d :=
    fun d hd => by rw [← t_0 d hd, Complex.conj_conj]
  have R0t_0 : ∀ d : ℂ, d.im = 0 → (starRingEnd ℂ) (R0 om p (q : ℂ) d) = R0 (-(om : ℂ)) p (q : ℂ) d :=
    fun d hd => R0_conj (Complex.ofReal_im q) hd
  have R0u_0 : ∀ d : ℂ, d.im = 0 → (starRingEnd ℂ) (R0 (-(om : ℂ)) p (q : ℂ) d) = R0 om p (q : ℂ) d :=
    fun d hd => by rw [← R0t_0 d hd, Complex.conj_conj]
  have PFt_0 : ∀ d : ℂ, d.im = 0 → (starRingEnd ℂ) (PF om p (q : ℂ) d) = PF (-(om : ℂ)) p (q : ℂ) d :=
    fun d hd => PF_conj (Complex.ofReal_im q) hd
  have PFu_0 : ∀ d : ℂ, d.im = 0 → (starRingEnd ℂ) (PF (-(om : ℂ)) p (q : ℂ) d) = PF om p (q : ℂ) d :=
    fun d hd => by rw [← PFt_0 d hd, Complex.conj_conj]
  rw [toC_thermal_i_m_m_i_same_mass q om p m beta]
  simp only [thermal.i_m_m_i_same_mass, r_0_eq, r_0_same_mass_eq, tlog_eq, tlog_same_mass_eq, tlog_zero_mass_eq, tlog_l_eq, tlog_l_same_mass_eq, tlog_l_zero_mass_eq, tlog_t_eq, tlog_t_same_mass_eq, tlog_t_zero_mass_eq, zm_r_0_eq, zm_r_0_same_mass_eq, z0_r_0_C, z0_r_0_eq, z0_tlog_eq, z0_tlog_t_eq, toC_complex, toC_real, ofR_complex, ofR_real, toC_ofR, toC_zero, toC_energy, toC_bose, map_mul, map_add, map_neg, map_sub, map_inv₀, map_div₀]
  try push_cast
  try simp only [z0_r_0_R, z0_tlog_same_mass_eq, z0_tlog_zero_mass_eq, z0_tlog_t_same_mass_eq, z0_tlog_t_zero_mass_eq, ofReal_energy, ofReal_bose]
  simp only [R0t_m, R0u_m, PFt_m, PFu_m, t_m, u_m, R0t_0, R0u_0, PFt_0, PFu_0, t_0, u_0, hn, ZL_conj, bose_energy_conj, bose_conj, energy_conj, Complex.conj_ofReal, Complex.conj_I, map_mul, map_add, map_neg, map_sub, map_inv₀, map_div₀, Complex.sub_im, Complex.mul_im, Complex.neg_im, Complex.ofReal_im, Complex.zero_im, mul_zero, zero_mul, add_zero, sub_zero, neg_zero, map_one, map_zero, map_natCast]
  try simp only [mul_inv, inv_neg]
  try ring

theorem conj_thermal_i_m_0_i (q : ℝ) (om : ℝ) (p : ℝ) (m : ℝ) (beta : ℝ) (hq : 0 < q) (hom : om ≠ 0) :
    (starRingEnd ℂ) (thermal.i_m_0_i q om p m beta) = thermal.i_m_0_i q om p m beta := by
  have hn : ∀ n : ℕ, [n.AtLeastTwo] → (starRingEnd ℂ) (OfNat.ofNat n : ℂ) = OfNat.ofNat n := fun n _ => map_ofNat _ n
  have t_m : ∀ d : ℂ, d.im = 0 → (starRingEnd ℂ) (TL q om p (energy q (m : ℂ)) d) = TL q (-(om : ℂ)) p (energy q (m : ℂ)) d :=
    fun d hd => TL_conj (energy_im q m) hd ((InStrip.ofReal hom (energy_pos (m := m) hq)).R0 p (energy_re q m) (energy_im q m) hd)
  have u_m : ∀ d : ℂ, d.im = 0 → (starRingEnd ℂ) (TL q (-(om : ℂ)) p (energy q (m : ℂ)) d) = TL q om p (energy q (m : ℂ)) d :=
    fun d hd => by rw [← t_m d hd, Complex.conj_conj]
  have R0t_m : ∀ d : ℂ, d.im = 0 → (starRingEnd ℂ) (R0 om p (energy q (m : ℂ)) d) = R0 (-(om : ℂ)) p (energy q (m : ℂ)) d :=
    fun d hd => R0_conj (energy_im q m) hd
  have R0u_m : ∀ d : ℂ, d.im = 0 → (starRingEnd ℂ) (R0 (-(om : ℂ)) p (energy q (m : ℂ)) d) = R0 om p (energy q (m : ℂ)) d :=
    fun d hd => by rw [← R0t_m d hd, Complex.conj_conj]
  have PFt_m : ∀ d : ℂ, d.im = 0 → (starRingEnd ℂ) (PF om p (energy q (m : ℂ)) d) = PF (-(om : ℂ)) p (energy q (m : ℂ)) d :=
    fun d hd => PF_conj (energy_im q m) hd
  have PFu_m : ∀ d : ℂ, d.im = 0 → (starRingEnd ℂ) (PF (-(om : ℂ)) p (energy q (m : ℂ)) d) = PF om p (energy q (m : ℂ)) d :=
    fun d hd => by rw [← PFt_m d hd, Complex.conj_conj]
  have t_0 : ∀ d : ℂ, d.im = 0 → (starRingEnd ℂ) (TL q om p (q : ℂ) d) = TL q (-(om : ℂ)) p (q : ℂ) d :=
    fun d hd => TL_conj (Complex.ofReal_im q) hd ((InStrip.ofReal hom hq).R0 p (Complex.ofReal_re q) (Complex.ofReal_im q) hd)
  have u_0 : ∀ d : ℂ, d.im = 0 → (starRingEnd ℂ) (TL q (-(om : ℂ)) p (q : ℂ) d) = TL q om p (q : ℂ) d :=
    fun d hd => by rw [← t_0 d hd, Complex.conj_conj]
  have R0t_0 : ∀ d : ℂ, d.im = 0 → (starRingEnd ℂ) (R0 om p (q : ℂ) d) = R0 (-(om : ℂ)) p (q : ℂ) d :=
    fun d hd => R0_conj (Complex.ofReal_im q) hd
  have R0u_0 : ∀ d : ℂ, d.im = 0 → (starRingEnd ℂ) (R0 (-(om : ℂ)) p (q : ℂ) d) = R0 om p (q : ℂ) d :=
    fun d hd => by rw [← R0t_0 d hd, Complex.conj_conj]
  have PFt_0 : ∀ d : ℂ, d.im = 0 → (starRingEnd ℂ) (PF om p (q : ℂ) d) = PF (-(om : ℂ)) p (q : ℂ) d :=
    fun d hd => PF_conj (Complex.ofReal_im q) hd
  have PFu_0 : ∀ d : ℂ, d.im = 0 → (starRingEnd ℂ) (PF (-(om : ℂ)) p (q : ℂ) d) = PF om p (q : ℂ) d :=
    fun d hd => by rw [← PFt_0 d hd, Complex.conj_conj]
  rw [toC_thermal_i_m_0_i q om p m beta]
  simp only [thermal.i_m_0_i, r_0_eq, r_0_same_mass_eq, tlog_eq, tlog_same_mass_eq, tlog_zero_mass_eq, tlog_l_eq, tlog_l_same_mass_eq, tlog_l_zero_mass_eq, tlog_t_eq, tlog_t_same_mass_eq, tlog_t_zero_mass_eq, zm_r_0_eq, zm_r_0_same_mass_eq, z0_r_0_C, z0_r_0_eq, z0_tlog_eq, z0_tlog_t_eq, toC_complex, toC_real, ofR_complex, ofR_real, toC_ofR, toC_zero, toC_energy, toC_bose, map_mul, map_add, map_neg, map_sub, map_inv₀, map_div₀]
  try push_cast
  try simp only [z0_r_0_R, z0_tlog_same_mass_eq, z0_tlog_zero_mass_eq, z0_tlog_t_same_mass_eq, z0_tlog_t_zero_mass_eq, ofReal_energy, ofReal_bose]
  simp only [R0t_m, R0u_m, PFt_m, PFu_m, t_m, u_m, R0t_0, R0u_0, PFt_0, PFu_0, t_0, u_0, hn, ZL_conj, bose_energy_conj, bose_conj, energy_conj, Complex.conj_ofReal, Complex.conj_I, map_mul, map_add, map_neg, map_sub, map_inv₀, map_div₀, Complex.sub_im, Complex.mul_im, Complex.neg_im, Complex.ofReal_im, Complex.zero_im, mul_zero, zero_mul, add_zero, sub_zero, neg_zero, map_one, map_zero, map_natCast]
  try simp only [mul_inv, inv_neg]
  try ring

theorem conj_thermal_i_0_0_i (q : ℝ) (om : ℝ) (p : ℝ) (beta : ℝ) (hq : 0 < q) (hom : om ≠ 0) :
    (starRingEnd ℂ) (thermal.i_0_0_i q om p beta) = thermal.i_0_0_i q om p beta := by
  have hn : ∀ n : ℕ, [n.AtLeastTwo] → (starRingEnd ℂ) (OfNat.ofNat n : ℂ) = OfNat.ofNat n := fun n _ => map_ofNat _ n
  have t_0 : ∀ d : ℂ, d.im = 0 → (starRingEnd ℂ) (TL q om p (q : ℂ) d) = TL q (-(om : ℂ)) p (q : ℂ) d :=
    fun d hd => TL_conj (Complex.ofReal_im q) hd ((InStrip.ofReal hom hq).R0 p (Complex.ofReal_re q) (Complex.ofReal_im q) hd)
  have u_0 : ∀ d : ℂ, d.im = 0 → (starRingEnd ℂ) (TL q (-(om : ℂ)) p (q : ℂ) d) = TL q om p (q : ℂ) d :=
    fun d hd => by rw [← t_0 d hd, Complex.conj_conj]
  have R0t_0 : ∀ d : ℂ, d.im = 0 → (starRingEnd ℂ) (R0 om p (q : ℂ) d) = R0 (-(om : ℂ)) p (q : ℂ) d :=
    fun d hd => R0_conj (Complex.ofReal_im q) hd
  have R0u_0 : ∀ d : ℂ, d.im = 0 → (starRingEnd ℂ) (R0 (-(om : ℂ)) p (q : ℂ) d) = R0 om p (q : ℂ) d :=
    fun d hd => by rw [← R0t_0 d hd, Complex.conj_conj]
  have PFt_0 : ∀ d : ℂ, d.im = 0 → (starRingEnd ℂ) (PF om p (q : ℂ) d) = PF (-(om : ℂ)) p (q : ℂ) d :=
    fun d hd => PF_conj (Complex.ofReal_im q) hd
  have PFu_0 : ∀ d : ℂ, d.im = 0 → (starRingEnd ℂ) (PF (-(om : ℂ)) p (q : ℂ) d) = PF om p (q : ℂ) d :=
    fun d hd => by rw [← PFt_0 d hd, Complex.conj_conj]
  rw [toC_thermal_i_0_0_i q om p beta]
  simp only [thermal.i_0_0_i, r_0_eq, r_0_same_mass_eq, tlog_eq, tlog_same_mass_eq, tlog_zero_mass_eq, tlog_l_eq, tlog_l_same_mass_eq, tlog_l_zero_mass_eq, tlog_t_eq, tlog_t_same_mass_eq, tlog_t_zero_mass_eq, zm_r_0_eq, zm_r_0_same_mass_eq, z0_r_0_C, z0_r_0_eq, z0_tlog_eq, z0_tlog_t_eq, toC_complex, toC_real, ofR_complex, ofR_real, toC_ofR, toC_zero, toC_energy, toC_bose, map_mul, map_add, map_neg, map_sub, map_inv₀, map_div₀]
  try push_cast
  try simp only [z0_r_0_R, z0_tlog_same_mass_eq, z0_tlog_zero_mass_eq, z0_tlog_t_same_mass_eq, z0_tlog_t_zero_mass_eq, ofReal_energy, ofReal_bose]
  simp only [R0t_0, R0u_0, PFt_0, PFu_0, t_0, u_0, hn, ZL_conj, bose_energy_conj, bose_conj, energy_conj, Complex.conj_ofReal, Complex.conj_I, map_mul, map_add, map_neg, map_sub, map_inv₀, map_div₀, Complex.sub_im, Complex.mul_im, Complex.neg_im, Complex.ofReal_im, Complex.zero_im, mul_zero, zero_mul, add_zero, sub_zero, neg_zero, map_one, map_zero, map_natCast]
  try simp only [mul_inv, inv_neg]
  try ring

theorem conj_thermal_i_m_m_l_i (q : ℝ) (om : ℝ) (p : ℝ) (m1 : ℝ) (m2 : ℝ) (beta : ℝ) (hq : 0 < q) (hom : om ≠ 0) :
    (starRingEnd ℂ) (thermal.i_m_m_l_i q om p m1 m2 beta) = thermal.i_m_m_l_i q om p m1 m2 beta := by
  have hn : ∀ n : ℕ, [n.AtLeastTwo] → (starRingEnd ℂ) (OfNat.ofNat n : ℂ) = OfNat.ofNat n := fun n _ => map_ofNat _ n
  have t_m1 : ∀ d : ℂ, d.im = 0 → (starRingEnd ℂ) (TL q om p (energy q (m1 : ℂ)) d) = TL q (-(om : ℂ)) p (energy q (m1 : ℂ)) d :=
    fun d hd => TL_conj (energy_im q m1) hd ((InStrip.ofReal hom (energy_pos (m := m1) hq)).R0 p (energy_re q m1) (energy_im q m1) hd)
  have u_m1 : ∀ d : ℂ, d.im = 0 → (starRingEnd ℂ) (TL q (-(om : ℂ)) p (energy q (m1 : ℂ)) d) = TL q om p (energy q (m1 : ℂ)) d :=
    fun d hd => by rw [← t_m1 d hd, Complex.conj_conj]
  have R0t_m1 : ∀ d : ℂ, d.im = 0 → (starRingEnd ℂ) (R0 om p (energy q (m1 : ℂ)) d) = R0 (-(om : ℂ)) p (energy q (m1 : ℂ)) d :=
    fun d hd => R0_conj (energy_im q m1) hd
  have R0u_m1 : ∀ d : ℂ, d.im = 0 → (starRingEnd ℂ) (R0 (-(om : ℂ)) p (energy q (m1 : ℂ)) d) = R0 om p (energy q (m1 : ℂ)) d :=
    fun d hd => by rw [← R0t_m1 d hd, Complex.conj_conj]
  have PFt_m1 : ∀ d : ℂ, d.im = 0 → (starRingEnd ℂ) (PF om p (energy q (m1 : ℂ)) d) = PF (-(om : ℂ)) p (energy q (m1 : ℂ)) d :=
    fun d hd => PF_conj (energy_im q m1) hd
  have PFu_m1 : ∀ d : ℂ, d.im = 0 → (starRingEnd ℂ) (PF (-(om : ℂ)) p (energy q (m1 : ℂ)) d) = PF om p (energy q (m1 : ℂ)) d :=
    fun d hd => by rw [← PFt_m1 d hd, Complex.conj_conj]
  have t_m2 : ∀ d : ℂ, d.im = 0 → (starRingEnd ℂ) (TL q om p (energy q (m2 : ℂ)) d) = TL q (-(om : ℂ)) p (energy q (m2 : ℂ)) d :=
    fun d hd => TL_conj (energy_im q m2) hd ((InStrip.ofReal hom (energy_pos (m := m2) hq)).R0 p (energy_re q m2) (energy_im q m2) hd)
  have u_m2 : ∀ d : ℂ, d.im = 0 → (starRingEnd ℂ) (TL q (-(om : ℂ)) p (energy q (m2 : ℂ)) d) = TL q om p (energy q (m2 : ℂ)) d :=
    fun d hd => by rw [← t_m2 d hd, Complex.conj_conj]
  have R0t_m2 : ∀ d : ℂ, d.im = 0 → (starRingEnd ℂ) (R0 om p (energy q (m2 : ℂ)) d) = R0 (-(om : ℂ)) p (energy q (m2 : ℂ)) d :=
    fun d hd => R0_conj (energy_im q m2) hd
  have R0u_m2 : ∀ d : ℂ, d.im = 0 → (starRingEnd ℂ) (R0 (-(om : ℂ)) p (energy q (m2 : ℂ)) d) = R0 om p (energy q (m2 : ℂ)) d :=
    fun d hd => by rw [← R0t_m2 d hd, Complex.conj_conj]
  have PFt_m2 : ∀ d : ℂ, d.im = 0 → (starRingEnd ℂ) (PF om p (energy q (m2 : ℂ)) d) = PF (-(om : ℂ)) p (energy q (m2 : ℂ)) d :=
    fun d hd => PF_conj (energy_im q m2) hd
  have PFu_m2 : ∀ d : ℂ, d.im = 0 → (starRingEnd ℂ) (PF (-(om : ℂ)) p (energy q (m2 : ℂ)) d) = PF om p (energy q (m2 : ℂ)) d :=
    fun d hd => by rw [← PFt_m2 d hd, Complex.conj_conj]
  have t_0 : ∀ d : ℂ, d.im = 0 → (starRingEnd ℂ) (TL q om p (q : ℂ) d) = TL q (-(om : ℂ)) p (q : ℂ) d :=
    fun d hd => TL_conj (Complex.ofReal_im q) hd ((InStrip.ofReal hom hq).R0 p (Complex.ofReal_re q) (Complex.ofReal_im q) hd)
  have u_0 : ∀ d : ℂ, d.im = 0 → (starRingEnd ℂ) (TL q (-(om : ℂ)) p (q : ℂ) d) = TL q om p (q : ℂ) d :=
    fun d hd => by rw [← t_0 d hd, Complex.conj_conj]
  have R0t_0 : ∀ d : ℂ, d.im = 0 → (starRingEnd ℂ) (R0 om p (q : ℂ) d) = R0 (-(om : ℂ)) p (q : ℂ) d :=
    fun d hd => R0_conj (Complex.ofReal_im q) hd
  have R0u_0 : ∀ d : ℂ, d.im = 0 → (starRingEnd ℂ) (R0 (-(om : ℂ)) p (q : ℂ) d) = R0 om p (q : ℂ) d :=
    fun d hd => by rw [← R0t_0 d hd, Complex.conj_conj]
  have PFt_0 : ∀ d : ℂ, d.im = 0 → (starRingEnd ℂ) (PF om p (q : ℂ) d) = PF (-(om : ℂ)) p (q : ℂ) d :=
    fun d hd => PF_conj (Complex.ofReal_im q) hd
  have PFu_0 : ∀ d : ℂ, d.im = 0 → (starRingEnd ℂ) (PF (-(om : ℂ)) p (q : ℂ) d) = PF om p (q : ℂ) d :=
    fun d hd => by rw [← PFt_0 d hd, Complex.conj_conj]
  rw [toC_thermal_i_m_m_l_i q om p m1 m2 beta]
  simp only [thermal.i_m_m_l_i, r_0_eq, r_0_same_mass_eq, tlog_eq, tlog_same_mass_eq, tlog_zero_mass_eq, tlog_l_eq, tlog_l_same_mass_eq, tlog_l_zero_mass_eq, tlog_t_eq, tlog_t_same_mass_eq, tlog_t_zero_mass_eq, zm_r_0_eq, zm_r_0_same_mass_eq, z0_r_0_C, z0_r_0_eq, z0_tlog_eq, z0_tlog_t_eq, toC_complex, toC_real, ofR_complex, ofR_real, toC_ofR, toC_zero, toC_energy, toC_bose, map_mul, map_add, map_neg, map_sub, map_inv₀, map_div₀]
  try push_cast
  try simp only [z0_r_0_R, z0_tlog_same_mass_eq, z0_tlog_zero_mass_eq, z0_tlog_t_same_mass_eq, z0_tlog_t_zero_mass_eq, ofReal_energy, ofReal_bose]
  simp only [R0t_m1, R0u_m1, PFt_m1, PFu_m1, t_m1, u_m1, R0t_m2, R0u_m2, PFt_m2, PFu_m2, t_m2, u_m2, R0t_0, R0u_0, PFt_0, PFu_0, t_0, u_0, hn, ZL_conj, bose_energy_conj, bose_conj, energy_conj, Complex.conj_ofReal, Complex.conj_I, map_mul, map_add, map_neg, map_sub, map_inv₀, map_div₀, Complex.sub_im, Complex.mul_im, Complex.neg_im, Complex.ofReal_im, Complex.zero_im, mul_zero, zero_mul, add_zero, sub_zero, neg_zero, map_one, map_zero, map_natCast]
  try simp only [mul_inv, inv_neg]
  try ring

theorem conj_thermal_i_m_m_l_i_same_mass (q : ℝ) (om : ℝ) (p : ℝ) (m : ℝ) (beta : ℝ) (hq : 0 < q) (hom : om ≠ 0) :
    (starRingEnd ℂ) (thermal.i_m_m_l_i_same_mass q om p m beta) = thermal.i_m_m_l_i_same_mass q om p m beta := by
  have hn : ∀ n : ℕ, [n.AtLeastTwo] → (starRingEnd ℂ) (OfNat.ofNat n : ℂ) = OfNat.ofNat n := fun n _ => map_ofNat _ n
  have t_m : ∀ d : ℂ, d.im = 0 → (starRingEnd ℂ) (TL q om p (energy q (m : ℂ)) d) = TL q (-(om : ℂ)) p (energy q (m : ℂ)) d :=
    fun d hd => TL_conj (energy_im q m) hd ((InStrip.ofReal hom (energy_pos (m := m) hq)).R0 p (energy_re q m) (energy_im q m) hd)
  have u_m : ∀ d : ℂ, d.im = 0 → (starRingEnd ℂ) (TL q (-(om : ℂ)) p (energy q (m : ℂ)) d) = TL q om p (energy q (m : ℂ)) d :=
    fun d hd => by rw [← t_m d hd, Complex.conj_conj]
  have R0t_m : ∀ d : ℂ, d.im = 0 → (starRingEnd ℂ) (R0 om p (energy q (m : ℂ)) d) = R0 (-(om : ℂ)) p (energy q (m : ℂ)) d :=
    fun d hd => R0_conj (energy_im q m) hd
  have R0u_m : ∀ d : ℂ, d.im = 0 → (starRingEnd ℂ) (R0 (-(om : ℂ)) p (energy q (m : ℂ)) d) = R0 om p (energy q (m : ℂ)) d :=
    fun d hd => by rw [← R0t_m d hd, Complex.conj_conj]
  have PFt_m : ∀ d : ℂ, d.im = 0 → (starRingEnd ℂ) (PF om p (energy q (m : ℂ)) d) = PF (-(om : ℂ)) p (energy q (m : ℂ)) d :=
    fun d hd => PF_conj (energy_im q m) hd
  have PFu_m : ∀ d : ℂ, d.im = 0 → (starRingEnd ℂ) (PF (-(om : ℂ)) p (energy q (m : ℂ)) d) = PF om p (energy q (m : ℂ)) d :=
    fun d hd => by rw [← PFt_m d hd, Complex.conj_conj]
  have t_0 : ∀ d : ℂ, d.im = 0 → (starRingEnd ℂ) (TL q om p (q : ℂ) d) = TL q (-(om : ℂ)) p (q : ℂ) d :=
    fun d hd => TL_conj (Complex.ofReal_im q) hd ((InStrip.ofReal hom hq).R0 p (Complex.ofReal_re q) (Complex.ofReal_im q) hd)
  have u_0 : ∀ d : ℂ, d.im = 0 → (starRingEnd ℂ) (TL q (-(om : ℂ)) p (q : ℂ) d) = TL q om p (q : ℂ) d :=
    fun d hd => by rw [← t_0 d hd, Complex.conj_conj]
  have R0t_0 : ∀ d : ℂ, d.im = 0 → (starRingEnd ℂ) (R0 om p (q : ℂ) d) = R0 (-(om : ℂ)) p (q : ℂ) d :=
    fun d hd => R0_conj (Complex.ofReal_im q) hd
  have R0u_0 : ∀ d : ℂ, d.im = 0 → (starRingEnd ℂ) (R0 (-(om : ℂ)) p (q : ℂ) d) = R0 om p (q : ℂ) d :=
    fun d hd => by rw [← R0t_0 d hd, Complex.conj_conj]
  have PFt_0 : ∀ d : ℂ, d.im = 0 → (starRingEnd ℂ) (PF om p (q : ℂ) d) = PF (-(om : ℂ)) p (q : ℂ) d :=
    fun d hd => PF_conj (Complex.ofReal_im q) hd
  have PFu_0 : ∀ d : ℂ, d.im = 0 → (starRingEnd ℂ) (PF (-(om : ℂ)) p (q : ℂ) d) = PF om p (q : ℂ) d :=
    fun d hd => by rw [← PFt_0 d hd, Complex.conj_conj]
  rw [toC_thermal_i_m_m_l_i_same_mass q om p m beta]
  simp only [thermal.i_m_m_l_i_same_mass, r_0_eq, r_0_same_mass_eq, tlog_eq, tlog_same_mass_eq, tlog_zero_mass_eq, tlog_l_eq, tlog_l_same_mass_eq, tlog_l_zero_mass_eq, tlog_t_eq, tlog_t_same_mass_eq, tlog_t_zero_mass_eq, zm_r_0_eq, zm_r_0_same_mass_eq, z0_r_0_C, z0_r_0_eq, z0_tlog_eq, z0_tlog_t_eq, toC_complex, toC_real, ofR_complex, ofR_real, toC_ofR, toC_zero, toC_energy, toC_bose, map_mul, map_add, map_neg, map_sub, map_inv₀, map_div₀]
  try push_cast
  try simp only [z0_r_0_R, z0_tlog_same_mass_eq, z0_tlog_zero_mass_eq, z0_tlog_t_same_mass_eq, z0_tlog_t_zero_mass_eq, ofReal_energy, ofReal_bose]
  simp only [R0t_m, R0u_m, PFt_m, PFu_m, t_m, u_m, R0t_0, R0u_0, PFt_0, PFu_0, t_0, u_0, hn, ZL_conj, bose_energy_conj, bose_conj, energy_conj, Complex.conj_ofReal, Complex.conj_I, map_mul, map_add, map_neg, map_sub, map_inv₀, map_div₀, Complex.sub_im, Complex.mul_im, Complex.neg_im, Complex.ofReal_im, Complex.zero_im, mul_zero, zero_mul, add_zero, sub_zero, neg_zero, map_one, map_zero, map_natCast]
  try simp only [mul_inv, inv_neg]
  try ring

theorem conj_thermal_i_m_0_l_i (q : ℝ) (om : ℝ) (p : ℝ) (m : ℝ) (beta : ℝ) (hq : 0 < q) (hom : om ≠ 0) :
    (starRingEnd ℂ) (thermal.i_m_0_l_i q om p m beta) = thermal.i_m_0_l_i q om p m beta := by
  have hn : ∀ n : ℕ, [n.AtLeastTwo] → (starRingEnd ℂ) (OfNat.ofNat n : ℂ) = OfNat.ofNat n := fun n _ => map_ofNat _ n
  have t_m : ∀ d : ℂ, d.im = 0 → (starRingEnd ℂ) (TL q om p (energy q (m : ℂ)) d) = TL q (-(om : ℂ)) p (energy q (m : ℂ)) d :=
    fun d hd => TL_conj (energy_im q m) hd ((InStrip.ofReal hom (energy_pos (m := m) hq)).R0 p (energy_re q m) (energy_im q m) hd)
  have u_m : ∀ d : ℂ, d.im = 0 → (starRingEnd ℂ) (TL q (-(om : ℂ)) p (energy q (m : ℂ)) d) = TL q om p (energy q (m : ℂ)) d :=
    fun d hd => by rw [← t_m d hd, Complex.conj_conj]
  have R0t_m : ∀ d : ℂ, d.im = 0 → (starRingEnd ℂ) (R0 om p (energy q (m : ℂ)) d) = R0 (-(om : ℂ)) p (energy q (m : ℂ)) d :=
    fun d hd => R0_conj (energy_im q m) hd
  have R0u_m : ∀ d : ℂ, d.im = 0 → (starRingEnd ℂ) (R0 (-(om : ℂ)) p (energy q (m : ℂ)) d) = R0 om p (energy q (m : ℂ)) d :=
    fun d hd => by rw [← R0t_m d hd, Complex.conj_conj]
  have PFt_m : ∀ d : ℂ, d.im = 0 → (starRingEnd ℂ) (PF om p (energy q (m : ℂ)) d) = PF (-(om : ℂ)) p (energy q (m : ℂ)) d :=
    fun d hd => PF_conj (energy_im q m) hd
  have PFu_m : ∀ d : ℂ, d.im = 0 → (starRingEnd ℂ) (PF (-(om : ℂ)) p (energy q (m : ℂ)) d) = PF om p (energy q (m : ℂ)) d :=
    fun d hd => by rw [← PFt_m d hd, Complex.conj_conj]
  have t_0 : ∀ d : ℂ, d.im = 0 → (starRingEnd ℂ) (TL q om p (q : ℂ) d) = TL q (-(om : ℂ)) p (q : ℂ) d :=
    fun d hd => TL_conj (Complex.ofReal_im q) hd ((InStrip.ofReal hom hq).R0 p (Complex.ofReal_re q) (Complex.ofReal_im q) hd)
  have u_0 : ∀ d : ℂ, d.im = 0 → (starRingEnd ℂ) (TL q (-(om : ℂ)) p (q : ℂ) d) = TL q om p (q : ℂ) d :=
    fun d hd => by rw [← t_0 d hd, Complex.conj_conj]
  have R0t_0 : ∀ d : ℂ, d.im = 0 → (starRingEnd ℂ) (R0 om p (q : ℂ) d) = R0 (-(om : ℂ)) p (q : ℂ) d :=
    fun d hd => R0_conj (Complex.ofReal_im q) hd
  have R0u_0 : ∀ d : ℂ, d.im = 0 → (starRingEnd ℂ) (R0 (-(om : ℂ)) p (q : ℂ) d) = R0 om p (q : ℂ) d :=
    fun d hd => by rw [← R0t_0 d hd, Complex.conj_conj]
  have PFt_0 : ∀ d : ℂ, d.im = 0 → (starRingEnd ℂ) (PF om p (q : ℂ) d) = PF (-(om : ℂ)) p (q : ℂ) d :=
    fun d hd => PF_conj (Complex.ofReal_im q) hd
  have PFu_0 : ∀ d : ℂ, d.im = 0 → (starRingEnd ℂ) (PF (-(om : ℂ)) p (q : ℂ) d) = PF om p (q : ℂ) d :=
    fun d hd => by rw [← PFt_0 d hd, Complex.conj_conj]
  rw [toC_thermal_i_m_0_l_i q om p m beta]
  simp only [thermal.i_m_0_l_i, r_0_eq, r_0_same_mass_eq, tlog_eq, tlog_same_mass_eq, tlog_zero_mass_eq, tlog_l_eq, tlog_l_same_mass_eq, tlog_l_zero_mass_eq, tlog_t_eq, tlog_t_same_mass_eq, tlog_t_zero_mass_eq, zm_r_0_eq, zm_r_0_same_mass_eq, z0_r_0_C, z0_r_0_eq, z0_tlog_eq, z0_tlog_t_eq, toC_complex, toC_real, ofR_complex, ofR_real, toC_ofR, toC_zero, toC_energy, toC_bose, map_mul, map_add, map_neg, map_sub, map_inv₀, map_div₀]
  try push_cast
  try simp only [z0_r_0_R, z0_tlog_same_mass_eq, z0_tlog_zero_mass_eq, z0_tlog_t_same_mass_eq, z0_tlog_t_zero_mass_eq, ofReal_energy, ofReal_bose]
  simp only [R0t_m, R0u_m, PFt_m, PFu_m, t_m, u_m, R0t_0, R0u_0, PFt_0, PFu_0, t_0, u_0, hn, ZL_conj, bose_energy_conj, bose_conj, energy_conj, Complex.conj_ofReal, Complex.conj_I, map_mul, map_add, map_neg, map_sub, map_inv₀, map_div₀, Complex.sub_im, Complex.mul_im, Complex.neg_im, Complex.ofReal_im, Complex.zero_im, mul_zero, zero_mul, add_zero, sub_zero, neg_zero, map_one, map_zero, map_natCast]
  try simp only [mul_inv, inv_neg]
  try ring

theorem conj_thermal_i_0_0_l_i (q : ℝ) (om : ℝ) (p : ℝ) (beta : ℝ) (hq : 0 < q) (hom : om ≠ 0) :
    (starRingEnd ℂ) (thermal.i_0_0_l_i q om p beta) = thermal.i_0_0_l_i q om p beta := by
  have hn : ∀ n : ℕ, [n.AtLeastTwo] → (starRingEnd ℂ) (OfNat.ofNat n : ℂ) = OfNat.ofNat n := fun n _ => map_ofNat _ n
  have t_0 : ∀ d : ℂ, d.im = 0 → (starRingEnd ℂ) (TL q om p (q : ℂ) d) = TL q (-(om : ℂ)) p (q : ℂ) d :=
    fun d hd => TL_conj (Complex.ofReal_im q) hd ((InStrip.ofReal hom hq).R0 p (Complex.ofReal_re q) (Complex.ofReal_im q) hd)
  have u_0 : ∀ d : ℂ, d.im = 0 → (starRingEnd ℂ) (TL q (-(om : ℂ)) p (q : ℂ) d) = TL q om p (q : ℂ) d :=
    fun d hd => by rw [← t_0 d hd, Complex.conj_conj]
  have R0t_0 : ∀ d : ℂ, d.im = 0 → (starRingEnd ℂ) (R0 om p (q : ℂ) d) = R0 (-(om : ℂ)) p (q : ℂ) d :=
    fun d hd => R0_conj (Complex.ofReal_im q) hd
  have R0u_0 : ∀ d : ℂ, d.im = 0 → (starRingEnd ℂ) (R0 (-(om : ℂ)) p (q : ℂ) d) = R0 om p (q : ℂ) d :=
    fun d hd => by rw [← R0t_0 d hd, Complex.conj_conj]
  have PFt_0 : ∀ d : ℂ, d.im = 0 → (starRingEnd ℂ) (PF om p (q : ℂ) d) = PF (-(om : ℂ)) p (q : ℂ) d :=
    fun d hd => PF_conj (Complex.ofReal_im q) hd
  have PFu_0 : ∀ d : ℂ, d.im = 0 → (starRingEnd ℂ) (PF (-(om : ℂ)) p (q : ℂ) d) = PF om p (q : ℂ) d :=
    fun d hd => by rw [← PFt_0 d hd, Complex.conj_conj]
  rw [toC_thermal_i_0_0_l_i q om p beta]
  simp only [thermal.i_0_0_l_i, r_0_eq, r_0_same_mass_eq, tlog_eq, tlog_same_mass_eq, tlog_zero_mass_eq, tlog_l_eq, tlog_l_same_mass_eq, tlog_l_zero_mass_eq, tlog_t_eq, tlog_t_same_mass_eq, tlog_t_zero_mass_eq, zm_r_0_eq, zm_r_0_same_mass_eq, z0_r_0_C, z0_r_0_eq, z0_tlog_eq, z0_tlog_t_eq, toC_complex, toC_real, ofR_complex, ofR_real, toC_ofR, toC_zero, toC_energy, toC_bose, map_mul, map_add, map_neg, map_sub, map_inv₀, map_div₀]
  try push_cast
  try simp only [z0_r_0_R, z0_tlog_same_mass_eq, z0_tlog_zero_mass_eq, z0_tlog_t_same_mass_eq, z0_tlog_t_zero_mass_eq, ofReal_energy, ofReal_bose]
  simp only [R0t_0, R0u_0, PFt_0, PFu_0, t_0, u_0, hn, ZL_conj, bose_energy_conj, bose_conj, energy_conj, Complex.conj_ofReal, Complex.conj_I, map_mul, map_add, map_neg, map_sub, map_inv₀, map_div₀, Complex.sub_im, Complex.mul_im, Complex.neg_im, Complex.ofReal_im, Complex.zero_im, mul_zero, zero_mul, add_zero, sub_zero, neg_zero, map_one, map_zero, map_natCast]
  try simp only [mul_inv, inv_neg]
  try ring

theorem conj_thermal_i_m_m_t_i (q : ℝ) (om : ℝ) (p : ℝ) (m1 : ℝ) (m2 : ℝ) (beta : ℝ) (hq : 0 < q) (hom : om ≠ 0) :
    (starRingEnd ℂ) (thermal.i_m_m_t_i q om p m1 m2 beta) = thermal.i_m_m_t_i q om p m1 m2 beta := by
  have hn : ∀ n : ℕ, [n.AtLeastTwo] → (starRingEnd ℂ) (OfNat.ofNat n : ℂ) = OfNat.ofNat n := fun n _ => map_ofNat _ n
  have t_m1 : ∀ d : ℂ, d.im = 0 → (starRingEnd ℂ) (TL q om p (energy q (m1 : ℂ)) d) = TL q (-(om : ℂ)) p (energy q (m1 : ℂ)) d :=
    fun d hd => TL_conj (energy_im q m1) hd ((InStrip.ofReal hom (energy_pos (m := m1) hq)).R0 p (energy_re q m1) (energy_im q m1) hd)
  have u_m1 : ∀ d : ℂ, d.im = 0 → (starRingEnd ℂ) (TL q (-(om : ℂ)) p (energy q (m1 : ℂ)) d) = TL q om p (energy q (m1 : ℂ)) d :=
    fun d hd => by rw [← t_m1 d hd, Complex.conj_conj]
  have R0t_m1 : ∀ d : ℂ, d.im = 0 → (starRingEnd ℂ) (R0 om p (energy q (m1 : ℂ)) d) = R0 (-(om : ℂ)) p (energy q (m1 : ℂ)) d :=
    fun d hd => R0_conj (energy_im q m1) hd
  have R0u_m1 : ∀ d : ℂ, d.im = 0 → (starRingEnd ℂ) (R0 (-(om : ℂ)) p (energy q (m1 : ℂ)) d) = R0 om p (energy q (m1 : ℂ)) d :=
    fun d hd => by rw [← R0t_m1 d hd, Complex.conj_conj]
  have PFt_m1 : ∀ d : ℂ, d.im = 0 → (starRingEnd ℂ) (PF om p (energy q (m1 : ℂ)) d) = PF (-(om : ℂ)) p (energy q (m1 : ℂ)) d :=
    fun d hd => PF_conj (energy_im q m1) hd
  have PFu_m1 : ∀ d : ℂ, d.im = 0 → (starRingEnd ℂ) (PF (-(om : ℂ)) p (energy q (m1 : ℂ)) d) = PF om p (energy q (m1 : ℂ)) d :=
    fun d hd => by rw [← PFt_m1 d hd, Complex.conj_conj]
  have t_m2 : ∀ d : ℂ, d.im = 0 → (starRingEnd ℂ) (TL q om p (energy q (m2 : ℂ)) d) = TL q (-(om : ℂ)) p (energy q (m2 : ℂ)) d :=
    fun d hd => TL_conj (energy_im q m2) hd ((InStrip.ofReal hom (energy_pos (m := m2) hq)).R0 p (energy_re q m2) (energy_im q m2) hd)
  have u_m2 : ∀ d : ℂ, d.im = 0 → (starRingEnd ℂ) (TL q (-(om : ℂ)) p (energy q (m2 : ℂ)) d) = TL q om p (energy q (m2 : ℂ)) d :=
    fun d hd => by rw [← t_m2 d hd, Complex.conj_conj]
  have R0t_m2 : ∀ d : ℂ, d.im = 0 → (starRingEnd ℂ) (R0 om p (energy q (m2 : ℂ)) d) = R0 (-(om : ℂ)) p (energy q (m2 : ℂ)) d :=
    fun d hd => R0_conj (energy_im q m2) hd
  have R0u_m2 : ∀ d : ℂ, d.im = 0 → (starRingEnd ℂ) (R0 (-(om : ℂ)) p (energy q (m2 : ℂ)) d) = R0 om p (energy q (m2 : ℂ)) d :=
    fun d hd => by rw [← R0t_m2 d hd, Complex.conj_conj]
  have PFt_m2 : ∀ d : ℂ, d.im = 0 → (starRingEnd ℂ) (PF om p (energy q (m2 : ℂ)) d) = PF (-(om : ℂ)) p (energy q (m2 : ℂ)) d :=
    fun d hd => PF_conj (energy_im q m2) hd
  have PFu_m2 : ∀ d : ℂ, d.im = 0 → (starRingEnd ℂ) (PF (-(om : ℂ)) p (energy q (m2 : ℂ)) d) = PF om p (energy q (m2 : ℂ)) d :=
    fun d hd => by rw [← PFt_m2 d hd, Complex.conj_conj]
  have t_0 : ∀ d : ℂ, d.im = 0 → (starRingEnd ℂ) (TL q om p (q : ℂ) d) = TL q (-(om : ℂ)) p (q : ℂ) d :=
    fun d hd => TL_conj (Complex.ofReal_im q) hd ((InStrip.ofReal hom hq).R0 p (Complex.ofReal_re q) (Complex.ofReal_im q) hd)
  have u_0 : ∀ d : ℂ, d.im = 0 → (starRingEnd ℂ) (TL q (-(om : ℂ)) p (q : ℂ) d) = TL q om p (q : ℂ) d :=
    fun d hd => by rw [← t_0 d hd, Complex.conj_conj]
  have R0t_0 : ∀ d : ℂ, d.im = 0 → (starRingEnd ℂ) (R0 om p (q : ℂ) d) = R0 (-(om : ℂ)) p (q : ℂ) d :=
    fun d hd => R0_conj (Complex.ofReal_im q) hd
  have R0u_0 : ∀ d : ℂ, d.im = 0 → (starRingEnd ℂ) (R0 (-(om : ℂ)) p (q : ℂ) d) = R0 om p (q : ℂ) d :=
    fun d hd => by rw [← R0t_0 d hd, Complex.conj_conj]
  have PFt_0 : ∀ d : ℂ, d.im = 0 → (starRingEnd ℂ) (PF om p (q : ℂ) d) = PF (-(om : ℂ)) p (q : ℂ) d :=
    fun d hd => PF_conj (Complex.ofReal_im q) hd
  have PFu_0 : ∀ d : ℂ, d.im = 0 → (starRingEnd ℂ) (PF (-(om : ℂ)) p (q : ℂ) d) = PF om p (q : ℂ) d :=
    fun d hd => by rw [← PFt_0 d hd, Complex.conj_conj]
  rw [toC_thermal_i_m_m_t_i q om p m1 m2 beta]
  simp only [thermal.i_m_m_t_i, r_0_eq, r_0_same_mass_eq, tlog_eq, tlog_same_mass_eq, tlog_zero_mass_eq, tlog_l_eq, tlog_l_same_mass_eq, tlog_l_zero_mass_eq, tlog_t_eq, tlog_t_same_mass_eq, tlog_t_zero_mass_eq, zm_r_0_eq, zm_r_0_same_mass_eq, z0_r_0_C, z0_r_0_eq, z0_tlog_eq, z0_tlog_t_eq, toC_complex, toC_real, ofR_complex, ofR_real, toC_ofR, toC_zero, toC_energy, toC_bose, map_mul, map_add, map_neg, map_sub, map_inv₀, map_div₀]
  try push_cast
  try simp only [z0_r_0_R, z0_tlog_same_mass_eq, z0_tlog_zero_mass_eq, z0_tlog_t_same_mass_eq, z0_tlog_t_zero_mass_eq, ofReal_energy, ofReal_bose]
  simp only [R0t_m1, R0u_m1, PFt_m1, PFu_m1, t_m1, u_m1, R0t_m2, R0u_m2, PFt_m2, PFu_m2, t_m2, u_m2, R0t_0, R0u_0, PFt_0, PFu_0, t_0, u_0, hn, ZL_conj, bose_energy_conj, bose_conj, energy_conj, Complex.conj_ofReal, Complex.conj_I, map_mul, map_add, map_neg, map_sub, map_inv₀, map_div₀, Complex.sub_im, Complex.mul_im, Complex.neg_im, Complex.ofReal_im, Complex.zero_im, mul_zero, zero_mul, add_zero, sub_zero, neg_zero, map_one, map_zero, map_natCast]
  try simp only [mul_inv, inv_neg]
  try ring

theorem conj_thermal_i_m_m_t_i_same_mass (q : ℝ) (om : ℝ) (p : ℝ) (m : ℝ) (beta : ℝ) (hq : 0 < q) (hom : om ≠ 0) :
    (starRingEnd ℂ) (thermal.i_m_m_t_i_same_mass q om p m beta) = thermal.i_m_m_t_i_same_mass q om p m beta := by
  have hn : ∀ n : ℕ, [n.AtLeastTwo] → (starRingEnd ℂ) (OfNat.ofNat n : ℂ) = OfNat.ofNat n := fun n _ => map_ofNat _ n
  have t_m : ∀ d : ℂ, d.im = 0 → (starRingEnd ℂ) (TL q om p (energy q (m : ℂ)) d) = TL q (-(om : ℂ)) p (energy q (m : ℂ)) d :=
    fun d hd => TL_conj (energy_im q m) hd ((InStrip.ofReal hom (energy_pos (m := m) hq)).R0 p (energy_re q m) (energy_im q m) hd)
  have u_m : ∀ d : ℂ, d.im = 0 → (starRingEnd ℂ) (TL q (-(om : ℂ)) p (energy q (m : ℂ)) d) = TL q om p (energy q (m : ℂ)) d :=
    fun d hd => by rw [← t_m d hd, Complex.conj_conj]
  have R0t_m : ∀ d : ℂ, d.im = 0 → (starRingEnd ℂ) (R0 om p (energy q (m : ℂ)) d) = R0 (-(om : ℂ)) p (energy q (m : ℂ)) d :=
    fun d hd => R0_conj (energy_im q m) hd
  have R0u_m : ∀ d : ℂ, d.im = 0 → (starRingEnd ℂ) (R0 (-(om : ℂ)) p (energy q (m : ℂ)) d) = R0 om p (energy q (m : ℂ)) d :=
    fun d hd => by rw [← R0t_m d hd, Complex.conj_conj]
  have PFt_m : ∀ d : ℂ, d.im = 0 → (starRingEnd ℂ) (PF om p (energy q (m : ℂ)) d) = PF (-(om : ℂ)) p (energy q (m : ℂ)) d :=
    fun d hd => PF_conj (energy_im q m) hd
  have PFu_m : ∀ d : ℂ, d.im = 0 → (starRingEnd ℂ) (PF (-(om : ℂ)) p (energy q (m : ℂ)) d) = PF om p (energy q (m : ℂ)) d :=
    fun d hd => by rw [← PFt_m d hd, Complex.conj_conj]
  have t_0 : ∀ d : ℂ, d.im = 0 → (starRingEnd ℂ) (TL q om p (q : ℂ) d) = TL q (-(om : ℂ)) p (q : ℂ) d :=
    fun d hd => TL_conj (Complex.ofReal_im q) hd ((InStrip.ofReal hom hq).R0 p (Complex.ofReal_re q) (Complex.ofReal_im q) hd)
  have u_0 : ∀ d : ℂ, d.im = 0 → (starRingEnd ℂ) (TL q (-(om : ℂ)) p (q : ℂ) d) = TL q om p (q : ℂ) d :=
    fun d hd => by rw [← t_0 d hd, Complex.conj_conj]
  have R0t_0 : ∀ d : ℂ, d.im = 0 → (starRingEnd ℂ) (R0 om p (q : ℂ) d) = R0 (-(om : ℂ)) p (q : ℂ) d :=
    fun d hd => R0_conj (Complex.ofReal_im q) hd
  have R0u_0 : ∀ d : ℂ, d.im = 0 → (starRingEnd ℂ) (R0 (-(om : ℂ)) p (q : ℂ) d) = R0 om p (q : ℂ) d :=
    fun d hd => by rw [← R0t_0 d hd, Complex.conj_conj]
  have PFt_0 : ∀ d : ℂ, d.im = 0 → (starRingEnd ℂ) (PF om p (q : ℂ) d) = PF (-(om : ℂ)) p (q : ℂ) d :=
    fun d hd => PF_conj (Complex.ofReal_im q) hd
  have PFu_0 : ∀ d : ℂ, d.im = 0 → (starRingEnd ℂ) (PF (-(om : ℂ)) p (q : ℂ) d) = PF om p (q : ℂ) d :=
    fun d hd => by rw [← PFt_0 d hd, Complex.conj_conj]
  rw [toC_thermal_i_m_m_t_i_same_mass q om p m beta]
  simp only [thermal.i_m_m_t_i_same_mass, r_0_eq, r_0_same_mass_eq, tlog_eq, tlog_same_mass_eq, tlog_zero_mass_eq, tlog_l_eq, tlog_l_same_mass_eq, tlog_l_zero_mass_eq, tlog_t_eq, tlog_t_same_mass_eq, tlog_t_zero_mass_eq, zm_r_0_eq, zm_r_0_same_mass_eq, z0_r_0_C, z0_r_0_eq, z0_tlog_eq, z0_tlog_t_eq, toC_complex, toC_real, ofR_complex, ofR_real, toC_ofR, toC_zero, toC_energy, toC_bose, map_mul, map_add, map_neg, map_sub, map_inv₀, map_div₀]
  try push_cast
  try simp only [z0_r_0_R, z0_tlog_same_mass_eq, z0_tlog_zero_mass_eq, z0_tlog_t_same_mass_eq, z0_tlog_t_zero_mass_eq, ofReal_energy, ofReal_bose]
  simp only [R0t_m, R0u_m, PFt_m, PFu_m, t_m, u_m, R0t_0, R0u_0, PFt_0, PFu_0, t_0, u_0, hn, ZL_conj, bose_energy_conj, bose_conj, energy_conj, Complex.conj_ofReal, Complex.conj_I, map_mul, map_add, map_neg, map_sub, map_inv₀, map_div₀, Complex.sub_im, Complex.mul_im, Complex.neg_im, Complex.ofReal_im, Complex.zero_im, mul_zero, zero_mul, add_zero, sub_zero, neg_zero, map_one, map_zero, map_natCast]
  try simp only [mul_inv, inv_neg]
  try ring

theorem conj_thermal_i_m_0_t_i (q : ℝ) (om : ℝ) (p : ℝ) (m : ℝ) (beta : ℝ) (hq : 0 < q) (hom : om ≠ 0) :
    (starRingEnd ℂ) (thermal.i_m_0_t_i q om p m beta) = thermal.i_m_0_t_i q om p m beta := by
  have hn : ∀ n : ℕ, [n.AtLeastTwo] → (starRingEnd ℂ) (OfNat.ofNat n : ℂ) = OfNat.ofNat n := fun n _ => map_ofNat _ n
  have t_m : ∀ d : ℂ, d.im = 0 → (starRingEnd ℂ) (TL q om p (energy q (m : ℂ)) d) = TL q (-(om : ℂ)) p (energy q (m : ℂ)) d :=
    fun d hd => TL_conj (energy_im q m) hd ((InStrip.ofReal hom (energy_pos (m := m) hq)).R0 p (energy_re q m) (energy_im q m) hd)
  have u_m : ∀ d : ℂ, d.im = 0 → (starRingEnd ℂ) (TL q (-(om : ℂ)) p (energy q (m : ℂ)) d) = TL q om p (energy q (m : ℂ)) d :=
    fun d hd => by rw [← t_m d hd, Complex.conj_conj]
  have R0t_m : ∀ d : ℂ, d.im = 0 → (starRingEnd ℂ) (R0 om p (energy q (m : ℂ)) d) = R0 (-(om : ℂ)) p (energy q (m : ℂ)) d :=
    fun d hd => R0_conj (energy_im q m) hd
  have R0u_m : ∀ d : ℂ, d.im = 0 → (starRingEnd ℂ) (R0 (-(om : ℂ)) p (energy q (m : ℂ)) d) = R0 om p (energy q (m : ℂ)) d :=
    fun d hd => by rw [← R0t_m d hd, Complex.conj_conj]
  have PFt_m : ∀ d : ℂ, d.im = 0 → (starRingEnd ℂ) (PF om p (energy q (m : ℂ)) d) = PF (-(om : ℂ)) p (energy q (m : ℂ)) d :=
    fun d hd => PF_conj (energy_im q m) hd
  have PFu_m : ∀ d : ℂ, d.im = 0 → (starRingEnd ℂ) (PF (-(om : ℂ)) p (energy q (m : ℂ)) d) = PF om p (energy q (m : ℂ)) d :=
    fun d hd => by rw [← PFt_m d hd, Complex.conj_conj]
  have t_0 : ∀ d : ℂ, d.im = 0 → (starRingEnd ℂ) (TL q om p (q : ℂ) d) = TL q (-(om : ℂ)) p (q : ℂ) d :=
    fun d hd => TL_conj (Complex.ofReal_im q) hd ((InStrip.ofReal hom hq).R0 p (Complex.ofReal_re q) (Complex.ofReal_im q) hd)
  have u_0 : ∀ d : ℂ, d.im = 0 → (starRingEnd ℂ) (TL q (-(om : ℂ)) p (q : ℂ) d) = TL q om p (q : ℂ) d :=
    fun d hd => by rw [← t_0 d hd, Complex.conj_conj]
  have R0t_0 : ∀ d : ℂ, d.im = 0 → (starRingEnd ℂ) (R0 om p (q : ℂ) d) = R0 (-(om : ℂ)) p (q : ℂ) d :=
    fun d hd => R0_conj (Complex.ofReal_im q) hd
  have R0u_0 : ∀ d : ℂ, d.im = 0 → (starRingEnd ℂ) (R0 (-(om : ℂ)) p (q : ℂ) d) = R0 om p (q : ℂ) d :=
    fun d hd => by rw [← R0t_0 d hd, Complex.conj_conj]
  have PFt_0 : ∀ d : ℂ, d.im = 0 → (starRingEnd ℂ) (PF om p (q : ℂ) d) = PF (-(om : ℂ)) p (q : ℂ) d :=
    fun d hd => PF_conj (Complex.ofReal_im q) hd
  have PFu_0 : ∀ d : ℂ, d.im = 0 → (starRingEnd ℂ) (PF (-(om : ℂ)) p (q : ℂ) d) = PF om p (q : ℂ) d :=
    fun d hd => by rw [← PFt_0 d hd, Complex.conj_conj]
  rw [toC_thermal_i_m_0_t_i q om p m beta]
  simp only [thermal.i_m_0_t_i, r_0_eq, r_0_same_mass_eq, tlog_eq, tlog_same_mass_eq, tlog_zero_mass_eq, tlog_l_eq, tlog_l_same_mass_eq, tlog_l_zero_mass_eq, tlog_t_eq, tlog_t_same_mass_eq, tlog_t_zero_mass_eq, zm_r_0_eq, zm_r_0_same_mass_eq, z0_r_0_C, z0_r_0_eq, z0_tlog_eq, z0_tlog_t_eq, toC_complex, toC_real, ofR_complex, ofR_real, toC_ofR, toC_zero, toC_energy, toC_bose, map_mul, map_add, map_neg, map_sub, map_inv₀, map_div₀]
  try push_cast
  try simp only [z0_r_0_R, z0_tlog_same_mass_eq, z0_tlog_zero_mass_eq, z0_tlog_t_same_mass_eq, z0_tlog_t_zero_mass_eq, ofReal_energy, ofReal_bose]
  simp only [R0t_m, R0u_m, PFt_m, PFu_m, t_m, u_m, R0t_0, R0u_0, PFt_0, PFu_0, t_0, u_0, hn, ZL_conj, bose_energy_conj, bose_conj, energy_conj, Complex.conj_ofReal, Complex.conj_I, map_mul, map_add, map_neg, map_sub, map_inv₀, map_div₀, Complex.sub_im, Complex.mul_im, Complex.neg_im, Complex.ofReal_im, Complex.zero_im, mul_zero, zero_mul, add_zero, sub_zero, neg_zero, map_one, map_zero, map_natCast]
  try simp only [mul_inv, inv_neg]
  try ring

theorem conj_thermal_i_0_0_t_i (q : ℝ) (om : ℝ) (p : ℝ) (beta : ℝ) (hq : 0 < q) (hom : om ≠ 0) :
    (starRingEnd ℂ) (thermal.i_0_0_t_i q om p beta) = thermal.i_0_0_t_i q om p beta := by
  have hn : ∀ n : ℕ, [n.AtLeastTwo] → (starRingEnd ℂ) (OfNat.ofNat n : ℂ) = OfNat.ofNat n := fun n _ => map_ofNat _ n
  have t_0 : ∀ d : ℂ, d.im = 0 → (starRingEnd ℂ) (TL q om p (q : ℂ) d) = TL q (-(om : ℂ)) p (q : ℂ) d :=
    fun d hd => TL_conj (Complex.ofReal_im q) hd ((InStrip.ofReal hom hq).R0 p (Complex.ofReal_re q) (Complex.ofReal_im q) hd)
  have u_0 : ∀ d : ℂ, d.im = 0 → (starRingEnd ℂ) (TL q (-(om : ℂ)) p (q : ℂ) d) = TL q om p (q : ℂ) d :=
    fun d hd => by rw [← t_0 d hd, Complex.conj_conj]
  have R0t_0 : ∀ d : ℂ, d.im = 0 → (starRingEnd ℂ) (R0 om p (q : ℂ) d) = R0 (-(om : ℂ)) p (q : ℂ) d :=
    fun d hd => R0_conj (Complex.ofReal_im q) hd
  have R0u_0 : ∀ d : ℂ, d.im = 0 → (starRingEnd ℂ) (R0 (-(om : ℂ)) p (q : ℂ) d) = R0 om p (q : ℂ) d :=
    fun d hd => by rw [← R0t_0 d hd, Complex.conj_conj]
  have PFt_0 : ∀ d : ℂ, d.im = 0 → (starRingEnd ℂ) (PF om p (q : ℂ) d) = PF (-(om : ℂ)) p (q : ℂ) d :=
    fun d hd => PF_conj (Complex.ofReal_im q) hd
  have PFu_0 : ∀ d : ℂ, d.im = 0 → (starRingEnd ℂ) (PF (-(om : ℂ)) p (q : ℂ) d) = PF om p (q : ℂ) d :=
    fun d hd => by rw [← PFt_0 d hd, Complex.conj_conj]
  rw [toC_thermal_i_0_0_t_i q om p beta]
  simp only [thermal.i_0_0_t_i, r_0_eq, r_0_same_mass_eq, tlog_eq, tlog_same_mass_eq, tlog_zero_mass_eq, tlog_l_eq, tlog_l_same_mass_eq, tlog_l_zero_mass_eq, tlog_t_eq, tlog_t_same_mass_eq, tlog_t_zero_mass_eq, zm_r_0_eq, zm_r_0_same_mass_eq, z0_r_0_C, z0_r_0_eq, z0_tlog_eq, z0_tlog_t_eq, toC_complex, toC_real, ofR_complex, ofR_real, toC_ofR, toC_zero, toC_energy, toC_bose, map_mul, map_add, map_neg, map_sub, map_inv₀, map_div₀]
  try push_cast
  try simp only [z0_r_0_R, z0_tlog_same_mass_eq, z0_tlog_zero_mass_eq, z0_tlog_t_same_mass_eq, z0_tlog_t_zero_mass_eq, ofReal_energy, ofReal_bose]
  simp only [R0t_0, R0u_0, PFt_0, PFu_0, t_0, u_0, hn, ZL_conj, bose_energy_conj, bose_conj, energy_conj, Complex.conj_ofReal, Complex.conj_I, map_mul, map_add, map_neg, map_sub, map_inv₀, map_div₀, Complex.sub_im, Complex.mul_im, Complex.neg_im, Complex.ofReal_im, Complex.zero_im, mul_zero, zero_mul, add_zero, sub_zero, neg_zero, map_one, map_zero, map_natCast]
  try simp only [mul_inv, inv_neg]
  try ring

theorem conj_thermal_d_i_m_m_i (q : ℝ) (om : ℝ) (p : ℝ) (m1 : ℝ) (m2 : ℝ) (beta : ℝ) (hq : 0 < q) (hom : om ≠ 0) :
    (starRingEnd ℂ) (thermal.d_i_m_m_i q om p m1 m2 beta) = thermal.d_i_m_m_i q om p m1 m2 beta := by
  have hn : ∀ n : ℕ, [n.AtLeastTwo] → (starRingEnd ℂ) (OfNat.ofNat n : ℂ) = OfNat.ofNat n := fun n _ => map_ofNat _ n
  have t_m1 : ∀ d : ℂ, d.im = 0 → (starRingEnd ℂ) (TL q om p (energy q (m1 : ℂ)) d) = TL q (-(om : ℂ)) p (energy q (m1 : ℂ)) d :=
    fun d hd => TL_conj (energy_im q m1) hd ((InStrip.ofReal hom (energy_pos (m := m1) hq)).R0 p (energy_re q m1) (energy_im q m1) hd)
  have u_m1 : ∀ d : ℂ, d.im = 0 → (starRingEnd ℂ) (TL q (-(om : ℂ)) p (energy q (m1 : ℂ)) d) = TL q om p (energy q (m1 : ℂ)) d :=
    fun d hd => by rw [← t_m1 d hd, Complex.conj_conj]
  have R0t_m1 : ∀ d : ℂ, d.im = 0 → (starRingEnd ℂ) (R0 om p (energy q (m1 : ℂ)) d) = R0 (-(om : ℂ)) p (energy q (m1 : ℂ)) d :=
    fun d hd => R0_conj (energy_im q m1) hd
  have R0u_m1 : ∀ d : ℂ, d.im = 0 → (starRingEnd ℂ) (R0 (-(om : ℂ)) p (energy q (m1 : ℂ)) d) = R0 om p (energy q (m1 : ℂ)) d :=
    fun d hd => by rw [← R0t_m1 d hd, Complex.conj_conj]
  have PFt_m1 : ∀ d : ℂ, d.im = 0 → (starRingEnd ℂ) (PF om p (energy q (m1 : ℂ)) d) = PF (-(om : ℂ)) p (energy q (m1 : ℂ)) d :=
    fun d hd => PF_conj (energy_im q m1) hd
  have PFu_m1 : ∀ d : ℂ, d.im = 0 → (starRingEnd ℂ) (PF (-(om : ℂ)) p (energy q (m1 : ℂ)) d) = PF om p (energy q (m1 : ℂ)) d :=
    fun d hd => by rw [← PFt_m1 d hd, Complex.conj_conj]
  have t_m2 : ∀ d : ℂ, d.im = 0 → (starRingEnd ℂ) (TL q om p (energy q (m2 : ℂ)) d) = TL q (-(om : ℂ)) p (energy q (m2 : ℂ)) d :=
    fun d hd => TL_conj (energy_im q m2) hd ((InStrip.ofReal hom (energy_pos (m := m2) hq)).R0 p (energy_re q m2) (energy_im q m2) hd)
  have u_m2 : ∀ d : ℂ, d.im = 0 → (starRingEnd ℂ) (TL q (-(om : ℂ)) p (energy q (m2 : ℂ)) d) = TL q om p (energy q (m2 : ℂ)) d :=
    fun d hd => by rw [← t_m2 d hd, Complex.conj_conj]
  have R0t_m2 : ∀ d : ℂ, d.im = 0 → (starRingEnd ℂ) (R0 om p (energy q (m2 : ℂ)) d) = R0 (-(om : ℂ)) p (energy q (m2 : ℂ)) d :=
    fun d hd => R0_conj (energy_im q m2) hd
  have R0u_m2 : ∀ d : ℂ, d.im = 0 → (starRingEnd ℂ) (R0 (-(om : ℂ)) p (energy q (m2 : ℂ)) d) = R0 om p (energy q (m2 : ℂ)) d :=
    fun d hd => by rw [← R0t_m2 d hd, Complex.conj_conj]
  have PFt_m2 : ∀ d : ℂ, d.im = 0 → (starRingEnd ℂ) (PF om p (energy q (m2 : ℂ)) d) = PF (-(om : ℂ)) p (energy q (m2 : ℂ)) d :=
    fun d hd => PF_conj (energy_im q m2) hd
  have PFu_m2 : ∀ d : ℂ, d.im = 0 → (starRingEnd ℂ) (PF (-(om : ℂ)) p (energy q (m2 : ℂ)) d) = PF om p (energy q (m2 : ℂ)) d :=
    fun d hd => by rw [← PFt_m2 d hd, Complex.conj_conj]
  have t_0 : ∀ d : ℂ, d.im = 0 → (starRingEnd ℂ) (TL q om p (q : ℂ) d) = TL q (-(om : ℂ)) p (q : ℂ) d :=
    fun d hd => TL_conj (Complex.ofReal_im q) hd ((InStrip.ofReal hom hq).R0 p (Complex.ofReal_re q) (Complex.ofReal_im q) hd)
  have u_0 : ∀ d : ℂ, d.im = 0 → (starRingEnd ℂ) (TL q (-(om : ℂ)) p (q : ℂ) d) = TL q om p (q : ℂ) d :=
    fun d hd => by rw [← t_0 d hd, Complex.conj_conj]
  have R0t_0 : ∀ d : ℂ, d.im = 0 → (starRingEnd ℂ) (R0 om p (q : ℂ) d) = R0 (-(om : ℂ)) p (q : ℂ) d :=
    fun d hd => R0_conj (Complex.ofReal_im q) hd
  have R0u_0 : ∀ d : ℂ, d.im = 0 → (starRingEnd ℂ) (R0 (-(om : ℂ)) p (q : ℂ) d) = R0 om p (q : ℂ) d :=
    fun d hd => by rw [← R0t_0 d hd, Complex.conj_conj]
  have PFt_0 : ∀ d : ℂ, d.im = 0 → (starRingEnd ℂ) (PF om p (q : ℂ) d) = PF (-(om : ℂ)) p (q : ℂ) d :=
    fun d hd => PF_conj (Complex.ofReal_im q) hd
  have PFu_0 : ∀ d : ℂ, d.im = 0 → (starRingEnd ℂ) (PF (-(om : ℂ)) p (q : ℂ) d) = PF om p (q : ℂ) d :=
    fun d hd => by rw [← PFt_0 d hd, Complex.conj_conj]
  rw [toC_thermal_d_i_m_m_i q om p m1 m2 beta]
  simp only [thermal.d_i_m_m_i, r_0_eq, r_0_same_mass_eq, tlog_eq, tlog_same_mass_eq, tlog_zero_mass_eq, tlog_l_eq, tlog_l_same_mass_eq, tlog_l_zero_mass_eq, tlog_t_eq, tlog_t_same_mass_eq, tlog_t_zero_mass_eq, zm_r_0_eq, zm_r_0_same_mass_eq, z0_r_0_C, z0_r_0_eq, z0_tlog_eq, z0_tlog_t_eq, toC_complex, toC_real, ofR_complex, ofR_real, toC_ofR, toC_zero, toC_energy, toC_bose, map_mul, map_add, map_neg, map_sub, map_inv₀, map_div₀]
  try push_cast
  try simp only [z0_r_0_R, z0_tlog_same_mass_eq, z0_tlog_zero_mass_eq, z0_tlog_t_same_mass_eq, z0_tlog_t_zero_mass_eq, ofReal_energy, ofReal_bose]
  simp only [R0t_m1, R0u_m1, PFt_m1, PFu_m1, t_m1, u_m1, R0t_m2, R0u_m2, PFt_m2, PFu_m2, t_m2, u_m2, R0t_0, R0u_0, PFt_0, PFu_0, t_0, u_0, hn, ZL_conj, bose_energy_conj, bose_conj, energy_conj, Complex.conj_ofReal, Complex.conj_I, map_mul, map_add, map_neg, map_sub, map_inv₀, map_div₀, Complex.sub_im, Complex.mul_im, Complex.neg_im, Complex.ofReal_im, Complex.zero_im, mul_zero, zero_mul, add_zero, sub_zero, neg_zero, map_one, map_zero, map_natCast]
  try simp only [mul_inv, inv_neg]
  try ring

theorem conj_thermal_d_i_m_m_i_same_mass (q : ℝ) (om : ℝ) (p : ℝ) (m : ℝ) (beta : ℝ) (hq : 0 < q) (hom : om ≠ 0) :
    (starRingEnd ℂ) (thermal.d_i_m_m_i_same_mass q om p m beta) = thermal.d_i_m_m_i_same_mass q om p m beta := by
  have hn : ∀ n : ℕ, [n.AtLeastTwo] → (starRingEnd ℂ) (OfNat.ofNat n : ℂ) = OfNat.ofNat n := fun n _ => map_ofNat _ n
  have t_m : ∀ d : ℂ, d.im = 0 → (starRingEnd ℂ) (TL q om p (energy q (m : ℂ)) d) = TL q (-(om : ℂ)) p (energy q (m : ℂ)) d :=
    fun d hd => TL_conj (energy_im q m) hd ((InStrip.ofReal hom (energy_pos (m := m) hq)).R0 p (energy_re q m) (energy_im q m) hd)
  have u_m : ∀ d : ℂ, d.im = 0 → (starRingEnd ℂ) (TL q (-(om : ℂ)) p (energy q (m : ℂ)) d) = TL q om p (energy q (m : ℂ)) d :=
    fun d hd => by rw [← t_m d hd, Complex.conj_conj]
  have R0t_m : ∀ d : ℂ, d.im = 0 → (starRingEnd ℂ) (R0 om p (energy q (m : ℂ)) d) = R0 (-(om : ℂ)) p (energy q (m : ℂ)) d :=
    fun d hd => R0_conj (energy_im q m) hd
  have R0u_m : ∀ d : ℂ, d.im = 0 → (starRingEnd ℂ) (R0 (-(om : ℂ)) p (energy q (m : ℂ)) d) = R0 om p (energy q (m : ℂ)) d :=
    fun d hd => by rw [← R0t_m d hd, Complex.conj_conj]
  have PFt_m : ∀ d : ℂ, d.im = 0 → (starRingEnd ℂ) (PF om p (energy q (m : ℂ)) d) = PF (-(om : ℂ)) p (energy q (m : ℂ)) d :=
    fun d hd => PF_conj (energy_im q m) hd
  have PFu_m : ∀ d : ℂ, d.im = 0 → (starRingEnd ℂ) (PF (-(om : ℂ)) p (energy q (m : ℂ)) d) = PF om p (energy q (m : ℂ)) d :=
    fun d hd => by rw [← PFt_m d hd, Complex.conj_conj]
  have t_0 : ∀ d : ℂ, d.im = 0 → (starRingEnd ℂ) (TL q om p (q : ℂ) d) = TL q (-(om : ℂ)) p (q : ℂ) d :=
    fun d hd => TL_conj (Complex.ofReal_im q) hd ((InStrip.ofReal hom hq).R0 p (Complex.ofReal_re q) (Complex.ofReal_im q) hd)
  have u_0 : ∀ d : ℂ, d.im = 0 → (starRingEnd ℂ) (TL q (-(om : ℂ)) p (q : ℂ) d) = TL q om p (q : ℂ) d :=
    fun d hd => by rw [← t_0 d hd, Complex.conj_conj]
  have R0t_0 : ∀ d : ℂ, d.im = 0 → (starRingEnd ℂ) (R0 om p (q : ℂ) d) = R0 (-(om : ℂ)) p (q : ℂ) d :=
    fun d hd => R0_conj (Complex.ofReal_im q) hd
  have R0u_0 : ∀ d : ℂ, d.im = 0 → (starRingEnd ℂ) (R0 (-(om : ℂ)) p (q : ℂ) d) = R0 om p (q : ℂ) d :=
    fun d hd => by rw [← R0t_0 d hd, Complex.conj_conj]
  have PFt_0 : ∀ d : ℂ, d.im = 0 → (starRingEnd ℂ) (PF om p (q : ℂ) d) = PF (-(om : ℂ)) p (q : ℂ) d :=
    fun d hd => PF_conj (Complex.ofReal_im q) hd
  have PFu_0 : ∀ d : ℂ, d.im = 0 → (starRingEnd ℂ) (PF (-(om : ℂ)) p (q : ℂ) d) = PF om p (q : ℂ) d :=
    fun d hd => by rw [← PFt_0 d hd, Complex.conj_conj]
  rw [toC_thermal_d_i_m_m_i_same_mass q om p m beta]
  simp only [thermal.d_i_m_m_i_same_mass, r_0_eq, r_0_same_mass_eq, tlog_eq, tlog_same_mass_eq, tlog_zero_mass_eq, tlog_l_eq, tlog_l_same_mass_eq, tlog_l_zero_mass_eq, tlog_t_eq, tlog_t_same_mass_eq, tlog_t_zero_mass_eq, zm_r_0_eq, zm_r_0_same_mass_eq, z0_r_0_C, z0_r_0_eq, z0_tlog_eq, z0_tlog_t_eq, toC_complex, toC_real, ofR_complex, ofR_real, toC_ofR, toC_zero, toC_energy, toC_bose, map_mul, map_add, map_neg, map_sub, map_inv₀, map_div₀]
  try push_cast
  try simp only [z0_r_0_R, z0_tlog_same_mass_eq, z0_tlog_zero_mass_eq, z0_tlog_t_same_mass_eq, z0_tlog_t_zero_mass_eq, ofReal_energy, ofReal_bose]
  simp only [R0t_m, R0u_m, PFt_m, PFu_m, t_m, u_m, R0t_0, R0u_0, PFt_0, PFu_0, t_0, u_0, hn, ZL_conj, bose_energy_conj, bose_conj, energy_conj, Complex.conj_ofReal, Complex.conj_I, map_mul, map_add, map_neg, map_sub, map_inv₀, map_div₀, Complex.sub_im, Complex.mul_im, Complex.neg_im, Complex.ofReal_im, Complex.zero_im, mul_zero, zero_mul, add_zero, sub_zero, neg_zero, map_one, map_zero, map_natCast]
  try simp only [mul_inv, inv_neg]
  try ring

theorem conj_thermal_d_i_m_0_i (q : ℝ) (om : ℝ) (p : ℝ) (m : ℝ) (beta : ℝ) (hq : 0 < q) (hom : om ≠ 0) :
    (starRingEnd ℂ) (thermal.d_i_m_0_i q om p m beta) = thermal.d_i_m_0_i q om p m beta := by
  have hn : ∀ n : ℕ, [n.AtLeastTwo] → (starRingEnd ℂ) (OfNat.ofNat n : ℂ) = OfNat.ofNat n := fun n _ => map_ofNat _ n
  have t_m : ∀ d : ℂ, d.im = 0 → (starRingEnd ℂ) (TL q om p (energy q (m : ℂ)) d) = TL q (-(om : ℂ)) p (energy q (m : ℂ)) d :=
    fun d hd => TL_conj (energy_im q m) hd ((InStrip.ofReal hom (energy_pos (m := m) hq)).R0 p (energy_re q m) (energy_im q m) hd)
  have u_m : ∀ d : ℂ, d.im = 0 → (starRingEnd ℂ) (TL q (-(om : ℂ)) p (energy q (m : ℂ)) d) = TL q om p (energy q (m : ℂ)) d :=
    fun d hd => by rw [← t_m d hd, Complex.conj_conj]
  have R0t_m : ∀ d : ℂ, d.im = 0 → (starRingEnd ℂ) (R0 om p (energy q (m : ℂ)) d) = R0 (-(om : ℂ)) p (energy q (m : ℂ)) d :=
    fun d hd => R0_conj (energy_im q m) hd
  have R0u_m : ∀ d : ℂ, d.im = 0 → (starRingEnd ℂ) (R0 (-(om : ℂ)) p (energy q (m : ℂ)) d) = R0 om p (energy q (m : ℂ)) d :=
    fun d hd => by rw [← R0t_m d hd, Complex.conj_conj]
  have PFt_m : ∀ d : ℂ, d.im = 0 → (starRingEnd ℂ) (PF om p (energy q (m : ℂ)) d) = PF (-(om : ℂ)) p (energy q (m : ℂ)) d :=
    fun d hd => PF_conj (energy_im q m) hd
  have PFu_m : ∀ d : ℂ, d.im = 0 → (starRingEnd ℂ) (PF (-(om : ℂ)) p (energy q (m : ℂ)) d) = PF om p (energy q (m : ℂ)) d :=
    fun d hd => by rw [← PFt_m d hd, Complex.conj_conj]
  have t_0 : ∀ d : ℂ, d.im = 0 → (starRingEnd ℂ) (TL q om p (q : ℂ) d) = TL q (-(om : ℂ)) p (q : ℂ) d :=
    fun d hd => TL_conj (Complex.ofReal_im q) hd ((InStrip.ofReal hom hq).R0 p (Complex.ofReal_re q) (Complex.ofReal_im q) hd)
  have u_0 : ∀ d : ℂ, d.im = 0 → (starRingEnd ℂ) (TL q (-(om : ℂ)) p (q : ℂ) d) = TL q om p (q : ℂ) d :=
    fun d hd => by rw [← t_0 d hd, Complex.conj_conj]
  have R0t_0 : ∀ d : ℂ, d.im = 0 → (starRingEnd ℂ) (R0 om p (q : ℂ) d) = R0 (-(om : ℂ)) p (q : ℂ) d :=
    fun d hd => R0_conj (Complex.ofReal_im q) hd
  have R0u_0 : ∀ d : ℂ, d.im = 0 → (starRingEnd ℂ) (R0 (-(om : ℂ)) p (q : ℂ) d) = R0 om p (q : ℂ) d :=
    fun d hd => by rw [← R0t_0 d hd, Complex.conj_conj]
  have PFt_0 : ∀ d : ℂ, d.im = 0 → (starRingEnd ℂ) (PF om p (q : ℂ) d) = PF (-(om : ℂ)) p (q : ℂ) d :=
    fun d hd => PF_conj (Complex.ofReal_im q) hd
  have PFu_0 : ∀ d : ℂ, d.im = 0 → (starRingEnd ℂ) (PF (-(om : ℂ)) p (q : ℂ) d) = PF om p (q : ℂ) d :=
    fun d hd => by rw [← PFt_0 d hd, Complex.conj_conj]
  rw [toC_thermal_d_i_m_0_i q om p m beta]
  simp only [thermal.d_i_m_0_i, r_0_eq, r_0_same_mass_eq, tlog_eq, tlog_same_mass_eq, tlog_zero_mass_eq, tlog_l_eq, tlog_l_same_mass_eq, tlog_l_zero_mass_eq, tlog_t_eq, tlog_t_same_mass_eq, tlog_t_zero_mass_eq, zm_r_0_eq, zm_r_0_same_mass_eq, z0_r_0_C, z0_r_0_eq, z0_tlog_eq, z0_tlog_t_eq, toC_complex, toC_real, ofR_complex, ofR_real, toC_ofR, toC_zero, toC_energy, toC_bose, map_mul, map_add, map_neg, map_sub, map_inv₀, map_div₀]
  try push_cast
  try simp only [z0_r_0_R, z0_tlog_same_mass_eq, z0_tlog_zero_mass_eq, z0_tlog_t_same_mass_eq, z0_tlog_t_zero_mass_eq, ofReal_energy, ofReal_bose]
  simp only [R0t_m, R0u_m, PFt_m, PFu_m, t_m, u_m, R0t_0, R0u_0, PFt_0, PFu_0, t_0, u_0, hn, ZL_conj, bose_energy_conj, bose_conj, energy_conj, Complex.conj_ofReal, Complex.conj_I, map_mul, map_add, map_neg, map_sub, map_inv₀, map_div₀, Complex.sub_im, Complex.mul_im, Complex.neg_im, Complex.ofReal_im, Complex.zero_im, mul_zero, zero_mul, add_zero, sub_zero, neg_zero, map_one, map_zero, map_natCast]
  try simp only [mul_inv, inv_neg]
  try ring

theorem conj_thermal_d_i_0_0_i (q : ℝ) (om : ℝ) (p : ℝ) (beta : ℝ) (hq : 0 < q) (hom : om ≠ 0) :
    (starRingEnd ℂ) (thermal.d_i_0_0_i q om p beta) = thermal.d_i_0_0_i q om p beta := by
  have hn : ∀ n : ℕ, [n.AtLeastTwo] → (starRingEnd ℂ) (OfNat.ofNat n : ℂ) = OfNat.ofNat n := fun n _ => map_ofNat _ n
  have t_0 : ∀ d : ℂ, d.im = 0 → (starRingEnd ℂ) (TL q om p (q : ℂ) d) = TL q (-(om : ℂ)) p (q : ℂ) d :=
    fun d hd => TL_conj (Complex.ofReal_im q) hd ((InStrip.ofReal hom hq).R0 p (Complex.ofReal_re q) (Complex.ofReal_im q) hd)
  have u_0 : ∀ d : ℂ, d.im = 0 → (starRingEnd ℂ) (TL q (-(om : ℂ)) p (q : ℂ) d) = TL q om p (q : ℂ) d :=
    fun d hd => by rw [← t_0 d hd, Complex.conj_conj]
  have R0t_0 : ∀ d : ℂ, d.im = 0 → (starRingEnd ℂ) (R0 om p (q : ℂ) d) = R0 (-(om : ℂ)) p (q : ℂ) d :=
    fun d hd => R0_conj (Complex.ofReal_im q) hd
  have R0u_0 : ∀ d : ℂ, d.im = 0 → (starRingEnd ℂ) (R0 (-(om : ℂ)) p (q : ℂ) d) = R0 om p (q : ℂ) d :=
    fun d hd => by rw [← R0t_0 d hd, Complex.conj_conj]
  have PFt_0 : ∀ d : ℂ, d.im = 0 → (starRingEnd ℂ) (PF om p (q : ℂ) d) = PF (-(om : ℂ)) p (q : ℂ) d :=
    fun d hd => PF_conj (Complex.ofReal_im q) hd
  have PFu_0 : ∀ d : ℂ, d.im = 0 → (starRingEnd ℂ) (PF (-(om : ℂ)) p (q : ℂ) d) = PF om p (q : ℂ) d :=
    fun d hd => by rw [← PFt_0 d hd, Complex.conj_conj]
  rw [toC_thermal_d_i_0_0_i q om p beta]
  simp only [thermal.d_i_0_0_i, r_0_eq, r_0_same_mass_eq, tlog_eq, tlog_same_mass_eq, tlog_zero_mass_eq, tlog_l_eq, tlog_l_same_mass_eq, tlog_l_zero_mass_eq, tlog_t_eq, tlog_t_same_mass_eq, tlog_t_zero_mass_eq, zm_r_0_eq, zm_r_0_same_mass_eq, z0_r_0_C, z0_r_0_eq, z0_tlog_eq, z0_tlog_t_eq, toC_complex, toC_real, ofR_complex, ofR_real, toC_ofR, toC_zero, toC_energy, toC_bose, map_mul, map_add, map_neg, map_sub, map_inv₀, map_div₀]
  try push_cast
  try simp only [z0_r_0_R, z0_tlog_same_mass_eq, z0_tlog_zero_mass_eq, z0_tlog_t_same_mass_eq, z0_tlog_t_zero_mass_eq, ofReal_energy, ofReal_bose]
  simp only [R0t_0, R0u_0, PFt_0, PFu_0, t_0, u_0, hn, ZL_conj, bose_energy_conj, bose_conj, energy_conj, Complex.conj_ofReal, Complex.conj_I, map_mul, map_add, map_neg, map_sub, map_inv₀, map_div₀, Complex.sub_im, Complex.mul_im, Complex.neg_im, Complex.ofReal_im, Complex.zero_im, mul_zero, zero_mul, add_zero, sub_zero, neg_zero, map_one, map_zero, map_natCast]
  try simp only [mul_inv, inv_neg]
  try ring

theorem conj_thermal_d_i_m_m_l_i (q : ℝ) (om : ℝ) (p : ℝ) (m1 : ℝ) (m2 : ℝ) (beta : ℝ) (hq : 0 < q) (hom : om ≠ 0) :
    (starRingEnd ℂ) (thermal.d_i_m_m_l_i q om p m1 m2 beta) = thermal.d_i_m_m_l_i q om p m1 m2 beta := by
  have hn : ∀ n : ℕ, [n.AtLeastTwo] → (starRingEnd ℂ) (OfNat.ofNat n : ℂ) = OfNat.ofNat n := fun n _ => map_ofNat _ n
  have t_m1 : ∀ d : ℂ, d.im = 0 → (starRingEnd ℂ) (TL q om p (energy q (m1 : ℂ)) d) = TL q (-(om : ℂ)) p (energy q (m1 : ℂ)) d :=
    fun d hd => TL_conj (energy_im q m1) hd ((InStrip.ofReal hom (energy_pos (m := m1) hq)).R0 p (energy_re q m1) (energy_im q m1) hd)
  have u_m1 : ∀ d : ℂ, d.im = 0 → (starRingEnd ℂ) (TL q (-(om : ℂ)) p (energy q (m1 : ℂ)) d) = TL q om p (energy q (m1 : ℂ)) d :=
    fun d hd => by rw [← t_m1 d hd, Complex.conj_conj]
  have R0t_m1 : ∀ d : ℂ, d.im = 0 → (starRingEnd ℂ) (R0 om p (energy q (m1 : ℂ)) d) = R0 (-(om : ℂ)) p (energy q (m1 : ℂ)) d :=
    fun d hd => R0_conj (energy_im q m1) hd
  have R0u_m1 : ∀ d : ℂ, d.im = 0 → (starRingEnd ℂ) (R0 (-(om : ℂ)) p (energy q (m1 : ℂ)) d) = R0 om p (energy q (m1 : ℂ)) d :=
    fun d hd => by rw [← R0t_m1 d hd, Complex.conj_conj]
  have PFt_m1 : ∀ d : ℂ, d.im = 0 → (starRingEnd ℂ) (PF om p (energy q (m1 : ℂ)) d) = PF (-(om : ℂ)) p (energy q (m1 : ℂ)) d :=
    fun d hd => PF_conj (energy_im q m1) hd
  have PFu_m1 : ∀ d : ℂ, d.im = 0 → (starRingEnd ℂ) (PF (-(om : ℂ)) p (energy q (m1 : ℂ)) d) = PF om p (energy q (m1 : ℂ)) d :=
    fun d hd => by rw [← PFt_m1 d hd, Complex.conj_conj]
  have t_m2 : ∀ d : ℂ, d.im = 0 → (starRingEnd ℂ) (TL q om p (energy q (m2 : ℂ)) d) = TL q (-(om : ℂ)) p (energy q (m2 : ℂ)) d :=
    fun d hd => TL_conj (energy_im q m2) hd ((InStrip.ofReal hom (energy_pos (m := m2) hq)).R0 p (energy_re q m2) (energy_im q m2) hd)
  have u_m2 : ∀ d : ℂ, d.im = 0 → (starRingEnd ℂ) (TL q (-(om : ℂ)) p (energy q (m2 : ℂ)) d) = TL q om p (energy q (m2 : ℂ)) d :=
    fun d hd => by rw [← t_m2 d hd, Complex.conj_conj]
  have R0t_m2 : ∀ d : ℂ, d.im = 0 → (starRingEnd ℂ) (R0 om p (energy q (m2 : ℂ)) d) = R0 (-(om : ℂ)) p (energy q (m2 : ℂ)) d :=
    fun d hd => R0_conj (energy_im q m2) hd
  have R0u_m2 : ∀ d : ℂ, d.im = 0 → (starRingEnd ℂ) (R0 (-(om : ℂ)) p (energy q (m2 : ℂ)) d) = R0 om p (energy q (m2 : ℂ)) d :=
    fun d hd => by rw [← R0t_m2 d hd, Complex.conj_conj]
  have PFt_m2 : ∀ d : ℂ, d.im = 0 → (starRingEnd ℂ) (PF om p (energy q (m2 : ℂ)) d) = PF (-(om : ℂ)) p (energy q (m2 : ℂ)) d :=
    fun d hd => PF_conj (energy_im q m2) hd
  have PFu_m2 : ∀ d : ℂ, d.im = 0 → (starRingEnd ℂ) (PF (-(om : ℂ)) p (energy q (m2 : ℂ)) d) = PF om p (energy q (m2 : ℂ)) d :=
    fun d hd => by rw [← PFt_m2 d hd, Complex.conj_conj]
  have t_0 : ∀ d : ℂ, d.im = 0 → (starRingEnd ℂ) (TL q om p (q : ℂ) d) = TL q (-(om : ℂ)) p (q : ℂ) d :=
    fun d hd => TL_conj (Complex.ofReal_im q) hd ((InStrip.ofReal hom hq).R0 p (Complex.ofReal_re q) (Complex.ofReal_im q) hd)
  have u_0 : ∀ d : ℂ, d.im = 0 → (starRingEnd ℂ) (TL q (-(om : ℂ)) p (q : ℂ) d) = TL q om p (q : ℂ) d :=
    fun d hd => by rw [← t_0 d hd, Complex.conj_conj]
  have R0t_0 : ∀ d : ℂ, d.im = 0 → (starRingEnd ℂ) (R0 om p (q : ℂ) d) = R0 (-(om : ℂ)) p (q : ℂ) d :=
    fun d hd => R0_conj (Complex.ofReal_im q) hd
  have R0u_0 : ∀ d : ℂ, d.im = 0 → (starRingEnd ℂ) (R0 (-(om : ℂ)) p (q : ℂ) d) = R0 om p (q : ℂ) d :=
    fun d hd => by rw [← R0t_0 d hd, Complex.conj_conj]
  have PFt_0 : ∀ d : ℂ, d.im = 0 → (starRingEnd ℂ) (PF om p (q : ℂ) d) = PF (-(om : ℂ)) p (q : ℂ) d :=
    fun d hd => PF_conj (Complex.ofReal_im q) hd
  have PFu_0 : ∀ d : ℂ, d.im = 0 → (starRingEnd ℂ) (PF (-(om : ℂ)) p (q : ℂ) d) = PF om p (q : ℂ) d :=
    fun d hd => by rw [← PFt_0 d hd, Complex.conj_conj]
  rw [toC_thermal_d_i_m_m_l_i q om p m1 m2 beta]
  simp only [thermal.d_i_m_m_l_i, r_0_eq, r_0_same_mass_eq, tlog_eq, tlog_same_mass_eq, tlog_zero_mass_eq, tlog_l_eq, tlog_l_same_mass_eq, tlog_l_zero_mass_eq, tlog_t_eq, tlog_t_same_mass_eq, tlog_t_zero_mass_eq, zm_r_0_eq, zm_r_0_same_mass_eq, z0_r_0_C, z0_r_0_eq, z0_tlog_eq, z0_tlog_t_eq, toC_complex, toC_real, ofR_complex, ofR_real, toC_ofR, toC_zero, toC_energy, toC_bose, map_mul, map_add, map_neg, map_sub, map_inv₀, map_div₀]
  try push_cast
  try simp only [z0_r_0_R, z0_tlog_same_mass_eq, z0_tlog_zero_mass_eq, z0_tlog_t_same_mass_eq, z0_tlog_t_zero_mass_eq, ofReal_energy, ofReal_bose]
  simp only [R0t_m1, R0u_m1, PFt_m1, PFu_m1, t_m1, u_m1, R0t_m2, R0u_m2, PFt_m2, PFu_m2, t_m2, u_m2, R0t_0, R0u_0, PFt_0, PFu_0, t_0, u_0, hn, ZL_conj, bose_energy_conj, bose_conj, energy_conj, Complex.conj_ofReal, Complex.conj_I, map_mul, map_add, map_neg, map_sub, map_inv₀, map_div₀, Complex.sub_im, Complex.mul_im, Complex.neg_im, Complex.ofReal_im, Complex.zero_im, mul_zero, zero_mul, add_zero, sub_zero, neg_zero, map_one, map_zero, map_natCast]
  try simp only [mul_inv, inv_neg]
  try ring

theorem conj_thermal_d_i_m_m_l_i_same_mass (q : ℝ) (om : ℝ) (p : ℝ) (m : ℝ) (beta : ℝ) (hq : 0 < q) (hom : om ≠ 0) :
    (starRingEnd ℂ) (thermal.d_i_m_m_l_i_same_mass q om p m beta) = thermal.d_i_m_m_l_i_same_mass q om p m beta := by
  have hn : ∀ n : ℕ, [n.AtLeastTwo] → (starRingEnd ℂ) (OfNat.ofNat n : ℂ) = OfNat.ofNat n := fun n _ => map_ofNat _ n
  have t_m : ∀ d : ℂ, d.im = 0 → (starRingEnd ℂ) (TL q om p (energy q (m : ℂ)) d) = TL q (-(om : ℂ)) p (energy q (m : ℂ)) d :=
    fun d hd => TL_conj (energy_im q m) hd ((InStrip.ofReal hom (energy_pos (m := m) hq)).R0 p (energy_re q m) (energy_im q m) hd)
  have u_m : ∀ d : ℂ, d.im = 0 → (starRingEnd ℂ) (TL q (-(om : ℂ)) p (energy q (m : ℂ)) d) = TL q om p (energy q (m : ℂ)) d :=
    fun d hd => by rw [← t_m d hd, Complex.conj_conj]
  have R0t_m : ∀ d : ℂ, d.im = 0 → (starRingEnd ℂ) (R0 om p (energy q (m : ℂ)) d) = R0 (-(om : ℂ)) p (energy q (m : ℂ)) d :=
    fun d hd => R0_conj (energy_im q m) hd
  have R0u_m : ∀ d : ℂ, d.im = 0 → (starRingEnd ℂ) (R0 (-(om : ℂ)) p (energy q (m : ℂ)) d) = R0 om p (energy q (m : ℂ)) d :=
    fun d hd => by rw [← R0t_m d hd, Complex.conj_conj]
  have PFt_m : ∀ d : ℂ, d.im = 0 → (starRingEnd ℂ) (PF om p (energy q (m : ℂ)) d) = PF (-(om : ℂ)) p (energy q (m : ℂ)) d :=
    fun d hd => PF_conj (energy_im q m) hd
  have PFu_m : ∀ d : ℂ, d.im = 0 → (starRingEnd ℂ) (PF (-(om : ℂ)) p (energy q (m : ℂ)) d) = PF om p (energy q (m : ℂ)) d :=
    fun d hd => by rw [← PFt_m d hd, Complex.conj_conj]
  have t_0 : ∀ d : ℂ, d.im = 0 → (starRingEnd ℂ) (TL q om p (q : ℂ) d) = TL q (-(om : ℂ)) p (q : ℂ) d :=
    fun d hd => TL_conj (Complex.ofReal_im q) hd ((InStrip.ofReal hom hq).R0 p (Complex.ofReal_re q) (Complex.ofReal_im q) hd)
  have u_0 : ∀ d : ℂ, d.im = 0 → (starRingEnd ℂ) (TL q (-(om : ℂ)) p (q : ℂ) d) = TL q om p (q : ℂ) d :=
    fun d hd => by rw [← t_0 d hd, Complex.conj_conj]
  have R0t_0 : ∀ d : ℂ, d.im = 0 → (starRingEnd ℂ) (R0 om p (q : ℂ) d) = R0 (-(om : ℂ)) p (q : ℂ) d :=
    fun d hd => R0_conj (Complex.ofReal_im q) hd
  have R0u_0 : ∀ d : ℂ, d.im = 0 → (starRingEnd ℂ) (R0 (-(om : ℂ)) p (q : ℂ) d) = R0 om p (q : ℂ) d :=
    fun d hd => by rw [← R0t_0 d hd, Complex.conj_conj]
  have PFt_0 : ∀ d : ℂ, d.im = 0 → (starRingEnd ℂ) (PF om p (q : ℂ) d) = PF (-(om : ℂ)) p (q : ℂ) d :=
    fun d hd => PF_conj (Complex.ofReal_im q) hd
  have PFu_0 : ∀ d : ℂ, d.im = 0 → (starRingEnd ℂ) (PF (-(om : ℂ)) p (q : ℂ) d) = PF om p (q : ℂ) d :=
    fun d hd => by rw [← PFt_0 d hd, Complex.conj_conj]
  rw [toC_thermal_d_i_m_m_l_i_same_mass q om p m beta]
  simp only [thermal.d_i_m_m_l_i_same_mass, r_0_eq, r_0_same_mass_eq, tlog_eq, tlog_same_mass_eq, tlog_zero_mass_eq, tlog_l_eq, tlog_l_same_mass_eq, tlog_l_zero_mass_eq, tlog_t_eq, tlog_t_same_mass_eq, tlog_t_zero_mass_eq, zm_r_0_eq, zm_r_0_same_mass_eq, z0_r_0_C, z0_r_0_eq, z0_tlog_eq, z0_tlog_t_eq, toC_complex, toC_real, ofR_complex, ofR_real, toC_ofR, toC_zero, toC_energy, toC_bose, map_mul, map_add, map_neg, map_sub, map_inv₀, map_div₀]
  try push_cast
  try simp only [z0_r_0_R, z0_tlog_same_mass_eq, z0_tlog_zero_mass_eq, z0_tlog_t_same_mass_eq, z0_tlog_t_zero_mass_eq, ofReal_energy, ofReal_bose]
  simp only [R0t_m, R0u_m, PFt_m, PFu_m, t_m, u_m, R0t_0, R0u_0, PFt_0, PFu_0, t_0, u_0, hn, ZL_conj, bose_energy_conj, bose_conj, energy_conj, Complex.conj_ofReal, Complex.conj_I, map_mul, map_add, map_neg, map_sub, map_inv₀, map_div₀, Complex.sub_im, Complex.mul_im, Complex.neg_im, Complex.ofReal_im, Complex.zero_im, mul_zero, zero_mul, add_zero, sub_zero, neg_zero, map_one, map_zero, map_natCast]
  try simp only [mul_inv, inv_neg]
  try ring

theorem conj_thermal_d_i_m_0_l_i (q : ℝ) (om : ℝ) (p : ℝ) (m : ℝ) (beta : ℝ) (hq : 0 < q) (hom : om ≠ 0) :
    (starRingEnd ℂ) (thermal.d_i_m_0_l_i q om p m beta) = thermal.d_i_m_0_l_i q om p m beta := by
  have hn : ∀ n : ℕ, [n.AtLeastTwo] → (starRingEnd ℂ) (OfNat.ofNat n : ℂ) = OfNat.ofNat n := fun n _ => map_ofNat _ n
  have t_m : ∀ d : ℂ, d.im = 0 → (starRingEnd ℂ) (TL q om p (energy q (m : ℂ)) d) = TL q (-(om : ℂ)) p (energy q (m : ℂ)) d :=
    fun d hd => TL_conj (energy_im q m) hd ((InStrip.ofReal hom (energy_pos (m := m) hq)).R0 p (energy_re q m) (energy_im q m) hd)
  have u_m : ∀ d : ℂ, d.im = 0 → (starRingEnd ℂ) (TL q (-(om : ℂ)) p (energy q (m : ℂ)) d) = TL q om p (energy q (m : ℂ)) d :=
    fun d hd => by rw [← t_m d hd, Complex.conj_conj]
  have R0t_m : ∀ d : ℂ, d.im = 0 → (starRingEnd ℂ) (R0 om p (energy q (m : ℂ)) d) = R0 (-(om : ℂ)) p (energy q (m : ℂ)) d :=
    fun d hd => R0_conj (energy_im q m) hd
  have R0u_m : ∀ d : ℂ, d.im = 0 → (starRingEnd ℂ) (R0 (-(om : ℂ)) p (energy q (m : ℂ)) d) = R0 om p (energy q (m : ℂ)) d :=
    fun d hd => by rw [← R0t_m d hd, Complex.conj_conj]
  have PFt_m : ∀ d : ℂ, d.im = 0 → (starRingEnd ℂ) (PF om p (energy q (m : ℂ)) d) = PF (-(om : ℂ)) p (energy q (m : ℂ)) d :=
    fun d hd => PF_conj (energy_im q m) hd
  have PFu_m : ∀ d : ℂ, d.im = 0 → (starRingEnd ℂ) (PF (-(om : ℂ)) p (energy q (m : ℂ)) d) = PF om p (energy q (m : ℂ)) d :=
    fun d hd => by rw [← PFt_m d hd, Complex.conj_conj]
  have t_0 : ∀ d : ℂ, d.im = 0 → (starRingEnd ℂ) (TL q om p (q : ℂ) d) = TL q (-(om : ℂ)) p (q : ℂ) d :=
    fun d hd => TL_conj (Complex.ofReal_im q) hd ((InStrip.ofReal hom hq).R0 p (Complex.ofReal_re q) (Complex.ofReal_im q) hd)
  have u_0 : ∀ d : ℂ, d.im = 0 → (starRingEnd ℂ) (TL q (-(om : ℂ)) p (q : ℂ) d) = TL q om p (q : ℂ) d :=
    fun d hd => by rw [← t_0 d hd, Complex.conj_conj]
  have R0t_0 : ∀ d : ℂ, d.im = 0 → (starRingEnd ℂ) (R0 om p (q : ℂ) d) = R0 (-(om : ℂ)) p (q : ℂ) d :=
    fun d hd => R0_conj (Complex.ofReal_im q) hd
  have R0u_0 : ∀ d : ℂ, d.im = 0 → (starRingEnd ℂ) (R0 (-(om : ℂ)) p (q : ℂ) d) = R0 om p (q : ℂ) d :=
    fun d hd => by rw [← R0t_0 d hd, Complex.conj_conj]
  have PFt_0 : ∀ d : ℂ, d.im = 0 → (starRingEnd ℂ) (PF om p (q : ℂ) d) = PF (-(om : ℂ)) p (q : ℂ) d :=
    fun d hd => PF_conj (Complex.ofReal_im q) hd
  have PFu_0 : ∀ d : ℂ, d.im = 0 → (starRingEnd ℂ) (PF (-(om : ℂ)) p (q : ℂ) d) = PF om p (q : ℂ) d :=
    fun d hd => by rw [← PFt_0 d hd, Complex.conj_conj]
  rw [toC_thermal_d_i_m_0_l_i q om p m beta]
  simp only [thermal.d_i_m_0_l_i, r_0_eq, r_0_same_mass_eq, tlog_eq, tlog_same_mass_eq, tlog_zero_mass_eq, tlog_l_eq, tlog_l_same_mass_eq, tlog_l_zero_mass_eq, tlog_t_eq, tlog_t_same_mass_eq, tlog_t_zero_mass_eq, zm_r_0_eq, zm_r_0_same_mass_eq, z0_r_0_C, z0_r_0_eq, z0_tlog_eq, z0_tlog_t_eq, toC_complex, toC_real, ofR_complex, ofR_real, toC_ofR, toC_zero, toC_energy, toC_bose, map_mul, map_add, map_neg, map_sub, map_inv₀, map_div₀]
  try push_cast
  try simp only [z0_r_0_R, z0_tlog_same_mass_eq, z0_tlog_zero_mass_eq, z0_tlog_t_same_mass_eq, z0_tlog_t_zero_mass_eq, ofReal_energy, ofReal_bose]
  simp only [R0t_m, R0u_m, PFt_m, PFu_m, t_m, u_m, R0t_0, R0u_0, PFt_0, PFu_0, t_0, u_0, hn, ZL_conj, bose_energy_conj, bose_conj, energy_conj, Complex.conj_ofReal, Complex.conj_I, map_mul, map_add, map_neg, map_sub, map_inv₀, map_div₀, Complex.sub_im, Complex.mul_im, Complex.neg_im, Complex.ofReal_im, Complex.zero_im, mul_zero, zero_mul, add_zero, sub_zero, neg_zero, map_one, map_zero, map_natCast]
  try simp only [mul_inv, inv_neg]
  try ring

theorem conj_thermal_d_i_0_0_l_i (q : ℝ) (om : ℝ) (p : ℝ) (beta : ℝ) (hq : 0 < q) (hom : om ≠ 0) :
    (starRingEnd ℂ) (thermal.d_i_0_0_l_i q om p beta) = thermal.d_i_0_0_l_i q om p beta := by
  have hn : ∀ n : ℕ, [n.AtLeastTwo] → (starRingEnd ℂ) (OfNat.ofNat n : ℂ) = OfNat.ofNat n := fun n _ => map_ofNat _ n
  have t_0 : ∀ d : ℂ, d.im = 0 → (starRingEnd ℂ) (TL q om p (q : ℂ) d) = TL q (-(om : ℂ)) p (q : ℂ) d :=
    fun d hd => TL_conj (Complex.ofReal_im q) hd ((InStrip.ofReal hom hq).R0 p (Complex.ofReal_re q) (Complex.ofReal_im q) hd)
  have u_0 : ∀ d : ℂ, d.im = 0 → (starRingEnd ℂ) (TL q (-(om : ℂ)) p (q : ℂ) d) = TL q om p (q : ℂ) d :=
    fun d hd => by rw [← t_0 d hd, Complex.conj_conj]
  have R0t_0 : ∀ d : ℂ, d.im = 0 → (starRingEnd ℂ) (R0 om p (q : ℂ) d) = R0 (-(om : ℂ)) p (q : ℂ) d :=
    fun d hd => R0_conj (Complex.ofReal_im q) hd
  have R0u_0 : ∀ d : ℂ, d.im = 0 → (starRingEnd ℂ) (R0 (-(om : ℂ)) p (q : ℂ) d) = R0 om p (q : ℂ) d :=
    fun d hd => by rw [← R0t_0 d hd, Complex.conj_conj]
  have PFt_0 : ∀ d : ℂ, d.im = 0 → (starRingEnd ℂ) (PF om p (q : ℂ) d) = PF (-(om : ℂ)) p (q : ℂ) d :=
    fun d hd => PF_conj (Complex.ofReal_im q) hd
  have PFu_0 : ∀ d : ℂ, d.im = 0 → (starRingEnd ℂ) (PF (-(om : ℂ)) p (q : ℂ) d) = PF om p (q : ℂ) d :=
    fun d hd => by rw [← PFt_0 d hd, Complex.conj_conj]
  rw [toC_thermal_d_i_0_0_l_i q om p beta]
  simp only [thermal.d_i_0_0_l_i, r_0_eq, r_0_same_mass_eq, tlog_eq, tlog_same_mass_eq, tlog_zero_mass_eq, tlog_l_eq, tlog_l_same_mass_eq, tlog_l_zero_mass_eq, tlog_t_eq, tlog_t_same_mass_eq, tlog_t_zero_mass_eq, zm_r_0_eq, zm_r_0_same_mass_eq, z0_r_0_C, z0_r_0_eq, z0_tlog_eq, z0_tlog_t_eq, toC_complex, toC_real, ofR_complex, ofR_real, toC_ofR, toC_zero, toC_energy, toC_bose, map_mul, map_add, map_neg, map_sub, map_inv₀, map_div₀]
  try push_cast
  try simp only [z0_r_0_R, z0_tlog_same_mass_eq, z0_tlog_zero_mass_eq, z0_tlog_t_same_mass_eq, z0_tlog_t_zero_mass_eq, ofReal_energy, ofReal_bose]
  simp only [R0t_0, R0u_0, PFt_0, PFu_0, t_0, u_0, hn, ZL_conj, bose_energy_conj, bose_conj, energy_conj, Complex.conj_ofReal, Complex.conj_I, map_mul, map_add, map_neg, map_sub, map_inv₀, map_div₀, Complex.sub_im, Complex.mul_im, Complex.neg_im, Complex.ofReal_im, Complex.zero_im, mul_zero, zero_mul, add_zero, sub_zero, neg_zero, map_one, map_zero, map_natCast]
  try simp only [mul_inv, inv_neg]
  try ring

theorem conj_thermal_d_i_m_m_t_i (q : ℝ) (om : ℝ) (p : ℝ) (m1 : ℝ) (m2 : ℝ) (beta : ℝ) (hq : 0 < q) (hom : om ≠ 0) :
    (starRingEnd ℂ) (thermal.d_i_m_m_t_i q om p m1 m2 beta) = thermal.d_i_m_m_t_i q om p m1 m2 beta := by
  have hn : ∀ n : ℕ, [n.AtLeastTwo] → (starRingEnd ℂ) (OfNat.ofNat n : ℂ) = OfNat.ofNat n := fun n _ => map_ofNat _ n
  have t_m1 : ∀ d : ℂ, d.im = 0 → (starRingEnd ℂ) (TL q om p (energy q (m1 : ℂ)) d) = TL q (-(om : ℂ)) p (energy q (m1 : ℂ)) d :=
    fun d hd => TL_conj (energy_im q m1) hd ((InStrip.ofReal hom (energy_pos (m := m1) hq)).R0 p (energy_re q m1) (energy_im q m1) hd)
  have u_m1 : ∀ d : ℂ, d.im = 0 → (starRingEnd ℂ) (TL q (-(om : ℂ)) p (energy q (m1 : ℂ)) d) = TL q om p (energy q (m1 : ℂ)) d :=
    fun d hd => by rw [← t_m1 d hd, Complex.conj_conj]
  have R0t_m1 : ∀ d : ℂ, d.im = 0 → (starRingEnd ℂ) (R0 om p (energy q (m1 : ℂ)) d) = R0 (-(om : ℂ)) p (energy q (m1 : ℂ)) d :=
    fun d hd => R0_conj (energy_im q m1) hd
  have R0u_m1 : ∀ d : ℂ, d.im = 0 → (starRingEnd ℂ) (R0 (-(om : ℂ)) p (energy q (m1 : ℂ)) d) = R0 om p (energy q (m1 : ℂ)) d :=
    fun d hd => by rw [← R0t_m1 d hd, Complex.conj_conj]
  have PFt_m1 : ∀ d : ℂ, d.im = 0 → (starRingEnd ℂ) (PF om p (energy q (m1 : ℂ)) d) = PF (-(om : ℂ)) p (energy q (m1 : ℂ)) d :=
    fun d hd => PF_conj (energy_im q m1) hd
  have PFu_m1 : ∀ d : ℂ, d.im = 0 → (starRingEnd ℂ) (PF (-(om : ℂ)) p (energy q (m1 : ℂ)) d) = PF om p (energy q (m1 : ℂ)) d :=
    fun d hd => by rw [← PFt_m1 d hd, Complex.conj_conj]
  have t_m2 : ∀ d : ℂ, d.im = 0 → (starRingEnd ℂ) (TL q om p (energy q (m2 : ℂ)) d) = TL q (-(om : ℂ)) p (energy q (m2 : ℂ)) d :=
    fun d hd => TL_conj (energy_im q m2) hd ((InStrip.ofReal hom (energy_pos (m := m2) hq)).R0 p (energy_re q m2) (energy_im q m2) hd)
  have u_m2 : ∀ d : ℂ, d.im = 0 → (starRingEnd ℂ) (TL q (-(om : ℂ)) p (energy q (m2 : ℂ)) d) = TL q om p (energy q (m2 : ℂ)) d :=
    fun d hd => by rw [← t_m2 d hd, Complex.conj_conj]
  have R0t_m2 : ∀ d : ℂ, d.im = 0 → (starRingEnd ℂ) (R0 om p (energy q (m2 : ℂ)) d) = R0 (-(om : ℂ)) p (energy q (m2 : ℂ)) d :=
    fun d hd => R0_conj (energy_im q m2) hd
  have R0u_m2 : ∀ d : ℂ, d.im = 0 → (starRingEnd ℂ) (R0 (-(om : ℂ)) p (energy q (m2 : ℂ)) d) = R0 om p (energy q (m2 : ℂ)) d :=
    fun d hd => by rw [← R0t_m2 d hd, Complex.conj_conj]
  have PFt_m2 : ∀ d : ℂ, d.im = 0 → (starRingEnd ℂ) (PF om p (energy q (m2 : ℂ)) d) = PF (-(om : ℂ)) p (energy q (m2 : ℂ)) d :=
    fun d hd => PF_conj (energy_im q m2) hd
  have PFu_m2 : ∀ d : ℂ, d.im = 0 → (starRingEnd ℂ) (PF (-(om : ℂ)) p (energy q (m2 : ℂ)) d) = PF om p (energy q (m2 : ℂ)) d :=
    fun d hd => by rw [← PFt_m2 d hd, Complex.conj_conj]
  have t_0 : ∀ d : ℂ, d.im = 0 → (starRingEnd ℂ) (TL q om p (q : ℂ) d) = TL q (-(om : ℂ)) p (q : ℂ) d :=
    fun d hd => TL_conj (Complex.ofReal_im q) hd ((InStrip.ofReal hom hq).R0 p (Complex.ofReal_re q) (Complex.ofReal_im q) hd)
  have u_0 : ∀ d : ℂ, d.im = 0 → (starRingEnd ℂ) (TL q (-(om : ℂ)) p (q : ℂ) d) = TL q om p (q : ℂ) d :=
    fun d hd => by rw [← t_0 d hd, Complex.conj_conj]
  have R0t_0 : ∀ d : ℂ, d.im = 0 → (starRingEnd ℂ) (R0 om p (q : ℂ) d) = R0 (-(om : ℂ)) p (q : ℂ) d :=
    fun d hd => R0_conj (Complex.ofReal_im q) hd
  have R0u_0 : ∀ d : ℂ, d.im = 0 → (starRingEnd ℂ) (R0 (-(om : ℂ)) p (q : ℂ) d) = R0 om p (q : ℂ) d :=
    fun d hd => by rw [← R0t_0 d hd, Complex.conj_conj]
  have PFt_0 : ∀ d : ℂ, d.im = 0 → (starRingEnd ℂ) (PF om p (q : ℂ) d) = PF (-(om : ℂ)) p (q : ℂ) d :=
    fun d hd => PF_conj (Complex.ofReal_im q) hd
  have PFu_0 : ∀ d : ℂ, d.im = 0 → (starRingEnd ℂ) (PF (-(om : ℂ)) p (q : ℂ) d) = PF om p (q : ℂ) d :=
    fun d hd => by rw [← PFt_0 d hd, Complex.conj_conj]
  rw [toC_thermal_d_i_m_m_t_i q om p m1 m2 beta]
  simp only [thermal.d_i_m_m_t_i, r_0_eq, r_0_same_mass_eq, tlog_eq, tlog_same_mass_eq, tlog_zero_mass_eq, tlog_l_eq, tlog_l_same_mass_eq, tlog_l_zero_mass_eq, tlog_t_eq, tlog_t_same_mass_eq, tlog_t_zero_mass_eq, zm_r_0_eq, zm_r_0_same_mass_eq, z0_r_0_C, z0_r_0_eq, z0_tlog_eq, z0_tlog_t_eq, toC_complex, toC_real, ofR_complex, ofR_real, toC_ofR, toC_zero, toC_energy, toC_bose, map_mul, map_add, map_neg, map_sub, map_inv₀, map_div₀]
  try push_cast
  try simp only [z0_r_0_R, z0_tlog_same_mass_eq, z0_tlog_zero_mass_eq, z0_tlog_t_same_mass_eq, z0_tlog_t_zero_mass_eq, ofReal_energy, ofReal_bose]
  simp only [R0t_m1, R0u_m1, PFt_m1, PFu_m1, t_m1, u_m1, R0t_m2, R0u_m2, PFt_m2, PFu_m2, t_m2, u_m2, R0t_0, R0u_0, PFt_0, PFu_0, t_0, u_0, hn, ZL_conj, bose_energy_conj, bose_conj, energy_conj, Complex.conj_ofReal, Complex.conj_I, map_mul, map_add, map_neg, map_sub, map_inv₀, map_div₀, Complex.sub_im, Complex.mul_im, Complex.neg_im, Complex.ofReal_im, Complex.zero_im, mul_zero, zero_mul, add_zero, sub_zero, neg_zero, map_one, map_zero, map_natCast]
  try simp only [mul_inv, inv_neg]
  try ring

theorem conj_thermal_d_i_m_m_t_i_same_mass (q : ℝ) (om : ℝ) (p : ℝ) (m : ℝ) (beta : ℝ) (hq : 0 < q) (hom : om ≠ 0) :
    (starRingEnd ℂ) (thermal.d_i_m_m_t_i_same_mass q om p m beta) = thermal.d_i_m_m_t_i_same_mass q om p m beta := by
  have hn : ∀ n : ℕ, [n.AtLeastTwo] → (starRingEnd ℂ) (OfNat.ofNat n : ℂ) = OfNat.ofNat n := fun n _ => map_ofNat _ n
  have t_m : ∀ d : ℂ, d.im = 0 → (starRingEnd ℂ) (TL q om p (energy q (m : ℂ)) d) = TL q (-(om : ℂ)) p (energy q (m : ℂ)) d :=
    fun d hd => TL_conj (energy_im q m) hd ((InStrip.ofReal hom (energy_pos (m := m) hq)).R0 p (energy_re q m) (energy_im q m) hd)
  have u_m : ∀ d : ℂ, d.im = 0 → (starRingEnd ℂ) (TL q (-(om : ℂ)) p (energy q (m : ℂ)) d) = TL q om p (energy q (m : ℂ)) d :=
    fun d hd => by rw [← t_m d hd, Complex.conj_conj]
  have R0t_m : ∀ d : ℂ, d.im = 0 → (starRingEnd ℂ) (R0 om p (energy q (m : ℂ)) d) = R0 (-(om : ℂ)) p (energy q (m : ℂ)) d :=
    fun d hd => R0_conj (energy_im q m) hd
  have R0u_m : ∀ d : ℂ, d.im = 0 → (starRingEnd ℂ) (R0 (-(om : ℂ)) p (energy q (m : ℂ)) d) = R0 om p (energy q (m : ℂ)) d :=
    fun d hd => by rw [← R0t_m d hd, Complex.conj_conj]
  have PFt_m : ∀ d : ℂ, d.im = 0 → (starRingEnd ℂ) (PF om p (energy q (m : ℂ)) d) = PF (-(om : ℂ)) p (energy q (m : ℂ)) d :=
    fun d hd => PF_conj (energy_im q m) hd
  have PFu_m : ∀ d : ℂ, d.im = 0 → (starRingEnd ℂ) (PF (-(om : ℂ)) p (energy q (m : ℂ)) d) = PF om p (energy q (m : ℂ)) d :=
    fun d hd => by rw [← PFt_m d hd, Complex.conj_conj]
  have t_0 : ∀ d : ℂ, d.im = 0 → (starRingEnd ℂ) (TL q om p (q : ℂ) d) = TL q (-(om : ℂ)) p (q : ℂ) d :=
    fun d hd => TL_conj (Complex.ofReal_im q) hd ((InStrip.ofReal hom hq).R0 p (Complex.ofReal_re q) (Complex.ofReal_im q) hd)
  have u_0 : ∀ d : ℂ, d.im = 0 → (starRingEnd ℂ) (TL q (-(om : ℂ)) p (q : ℂ) d) = TL q om p (q : ℂ) d :=
    fun d hd => by rw [← t_0 d hd, Complex.conj_conj]
  have R0t_0 : ∀ d : ℂ, d.im = 0 → (starRingEnd ℂ) (R0 om p (q : ℂ) d) = R0 (-(om : ℂ)) p (q : ℂ) d :=
    fun d hd => R0_conj (Complex.ofReal_im q) hd
  have R0u_0 : ∀ d : ℂ, d.im = 0 → (starRingEnd ℂ) (R0 (-(om : ℂ)) p (q : ℂ) d) = R0 om p (q : ℂ) d :=
    fun d hd => by rw [← R0t_0 d hd, Complex.conj_conj]
  have PFt_0 : ∀ d : ℂ, d.im = 0 → (starRingEnd ℂ) (PF om p (q : ℂ) d) = PF (-(om : ℂ)) p (q : ℂ) d :=
    fun d hd => PF_conj (Complex.ofReal_im q) hd
  have PFu_0 : ∀ d : ℂ, d.im = 0 → (starRingEnd ℂ) (PF (-(om : ℂ)) p (q : ℂ) d) = PF om p (q : ℂ) d :=
    fun d hd => by rw [← PFt_0 d hd, Complex.conj_conj]
  rw [toC_thermal_d_i_m_m_t_i_same_mass q om p m beta]
  simp only [thermal.d_i_m_m_t_i_same_mass, r_0_eq, r_0_same_mass_eq, tlog_eq, tlog_same_mass_eq, tlog_zero_mass_eq, tlog_l_eq, tlog_l_same_mass_eq, tlog_l_zero_mass_eq, tlog_t_eq, tlog_t_same_mass_eq, tlog_t_zero_mass_eq, zm_r_0_eq, zm_r_0_same_mass_eq, z0_r_0_C, z0_r_0_eq, z0_tlog_eq, z0_tlog_t_eq, toC_complex, toC_real, ofR_complex, ofR_real, toC_ofR, toC_zero, toC_energy, toC_bose, map_mul, map_add, map_neg, map_sub, map_inv₀, map_div₀]
  try push_cast
  try simp only [z0_r_0_R, z0_tlog_same_mass_eq, z0_tlog_zero_mass_eq, z0_tlog_t_same_mass_eq, z0_tlog_t_zero_mass_eq, ofReal_energy, ofReal_bose]
  simp only [R0t_m, R0u_m, PFt_m, PFu_m, t_m, u_m, R0t_0, R0u_0, PFt_0, PFu_0, t_0, u_0, hn, ZL_conj, bose_energy_conj, bose_conj, energy_conj, Complex.conj_ofReal, Complex.conj_I, map_mul, map_add, map_neg, map_sub, map_inv₀, map_div₀, Complex.sub_im, Complex.mul_im, Complex.neg_im, Complex.ofReal_im, Complex.zero_im, mul_zero, zero_mul, add_zero, sub_zero, neg_zero, map_one, map_zero, map_natCast]
  try simp only [mul_inv, inv_neg]
  try ring

theorem conj_thermal_d_i_m_0_t_i (q : ℝ) (om : ℝ) (p : ℝ) (m : ℝ) (beta : ℝ) (hq : 0 < q) (hom : om ≠ 0) :
    (starRingEnd ℂ) (thermal.d_i_m_0_t_i q om p m beta) = thermal.d_i_m_0_t_i q om p m beta := by
  have hn : ∀ n : ℕ, [n.AtLeastTwo] → (starRingEnd ℂ) (OfNat.ofNat n : ℂ) = OfNat.ofNat n := fun n _ => map_ofNat _ n
  have t_m : ∀ d : ℂ, d.im = 0 → (starRingEnd ℂ) (TL q om p (energy q (m : ℂ)) d) = TL q (-(om : ℂ)) p (energy q (m : ℂ)) d :=
    fun d hd => TL_conj (energy_im q m) hd ((InStrip.ofReal hom (energy_pos (m := m) hq)).R0 p (energy_re q m) (energy_im q m) hd)
  have u_m : ∀ d : ℂ, d.im = 0 → (starRingEnd ℂ) (TL q (-(om : ℂ)) p (energy q (m : ℂ)) d) = TL q om p (energy q (m : ℂ)) d :=
    fun d hd => by rw [← t_m d hd, Complex.conj_conj]
  have R0t_m : ∀ d : ℂ, d.im = 0 → (starRingEnd ℂ) (R0 om p (energy q (m : ℂ)) d) = R0 (-(om : ℂ)) p (energy q (m : ℂ)) d :=
    fun d hd => R0_conj (energy_im q m) hd
  have R0u_m : ∀ d : ℂ, d.im = 0 → (starRingEnd ℂ) (R0 (-(om : ℂ)) p (energy q (m : ℂ)) d) = R0 om p (energy q (m : ℂ)) d :=
    fun d hd => by rw [← R0t_m d hd, Complex.conj_conj]
  have PFt_m : ∀ d : ℂ, d.im = 0 → (starRingEnd ℂ) (PF om p (energy q (m : ℂ)) d) = PF (-(om : ℂ)) p (energy q (m : ℂ)) d :=
    fun d hd => PF_conj (energy_im q m) hd
  have PFu_m : ∀ d : ℂ, d.im = 0 → (starRingEnd ℂ) (PF (-(om : ℂ)) p (energy q (m : ℂ)) d) = PF om p (energy q (m : ℂ)) d :=
    fun d hd => by rw [← PFt_m d hd, Complex.conj_conj]
  have t_0 : ∀ d : ℂ, d.im = 0 → (starRingEnd ℂ) (TL q om p (q : ℂ) d) = TL q (-(om : ℂ)) p (q : ℂ) d :=
    fun d hd => TL_conj (Complex.ofReal_im q) hd ((InStrip.ofReal hom hq).R0 p (Complex.ofReal_re q) (Complex.ofReal_im q) hd)
  have u_0 : ∀ d : ℂ, d.im = 0 → (starRingEnd ℂ) (TL q (-(om : ℂ)) p (q : ℂ) d) = TL q om p (q : ℂ) d :=
    fun d hd => by rw [← t_0 d hd, Complex.conj_conj]
  have R0t_0 : ∀ d : ℂ, d.im = 0 → (starRingEnd ℂ) (R0 om p (q : ℂ) d) = R0 (-(om : ℂ)) p (q : ℂ) d :=
    fun d hd => R0_conj (Complex.ofReal_im q) hd
  have R0u_0 : ∀ d : ℂ, d.im = 0 → (starRingEnd ℂ) (R0 (-(om : ℂ)) p (q : ℂ) d) = R0 om p (q : ℂ) d :=
    fun d hd => by rw [← R0t_0 d hd, Complex.conj_conj]
  have PFt_0 : ∀ d : ℂ, d.im = 0 → (starRingEnd ℂ) (PF om p (q : ℂ) d) = PF (-(om : ℂ)) p (q : ℂ) d :=
    fun d hd => PF_conj (Complex.ofReal_im q) hd
  have PFu_0 : ∀ d : ℂ, d.im = 0 → (starRingEnd ℂ) (PF (-(om : ℂ)) p (q : ℂ) d) = PF om p (q : ℂ) d :=
    fun d hd => by rw [← PFt_0 d hd, Complex.conj_conj]
  rw [toC_thermal_d_i_m_0_t_i q om p m beta]
  simp only [thermal.d_i_m_0_t_i, r_0_eq, r_0_same_mass_eq, tlog_eq, tlog_same_mass_eq, tlog_zero_mass_eq, tlog_l_eq, tlog_l_same_mass_eq, tlog_l_zero_mass_eq, tlog_t_eq, tlog_t_same_mass_eq, tlog_t_zero_mass_eq, zm_r_0_eq, zm_r_0_same_mass_eq, z0_r_0_C, z0_r_0_eq, z0_tlog_eq, z0_tlog_t_eq, toC_complex, toC_real, ofR_complex, ofR_real, toC_ofR, toC_zero, toC_energy, toC_bose, map_mul, map_add, map_neg, map_sub, map_inv₀, map_div₀]
  try push_cast
  try simp only [z0_r_0_R, z0_tlog_same_mass_eq, z0_tlog_zero_mass_eq, z0_tlog_t_same_mass_eq, z0_tlog_t_zero_mass_eq, ofReal_energy, ofReal_bose]
  simp only [R0t_m, R0u_m, PFt_m, PFu_m, t_m, u_m, R0t_0, R0u_0, PFt_0, PFu_0, t_0, u_0, hn, ZL_conj, bose_energy_conj, bose_conj, energy_conj, Complex.conj_ofReal, Complex.conj_I, map_mul, map_add, map_neg, map_sub, map_inv₀, map_div₀, Complex.sub_im, Complex.mul_im, Complex.neg_im, Complex.ofReal_im, Complex.zero_im, mul_zero, zero_mul, add_zero, sub_zero, neg_zero, map_one, map_zero, map_natCast]
  try simp only [mul_inv, inv_neg]
  try ring

theorem conj_thermal_d_i_0_0_t_i (q : ℝ) (om : ℝ) (p : ℝ) (beta : ℝ) (hq : 0 < q) (hom : om ≠ 0) :
    (starRingEnd ℂ) (thermal.d_i_0_0_t_i q om p beta) = thermal.d_i_0_0_t_i q om p beta := by
  have hn : ∀ n : ℕ, [n.AtLeastTwo] → (starRingEnd ℂ) (OfNat.ofNat n : ℂ) = OfNat.ofNat n := fun n _ => map_ofNat _ n
  have t_0 : ∀ d : ℂ, d.im = 0 → (starRingEnd ℂ) (TL q om p (q : ℂ) d) = TL q (-(om : ℂ)) p (q : ℂ) d :=
    fun d hd => TL_conj (Complex.ofReal_im q) hd ((InStrip.ofReal hom hq).R0 p (Complex.ofReal_re q) (Complex.ofReal_im q) hd)
  have u_0 : ∀ d : ℂ, d.im = 0 → (starRingEnd ℂ) (TL q (-(om : ℂ)) p (q : ℂ) d) = TL q om p (q : ℂ) d :=
    fun d hd => by rw [← t_0 d hd, Complex.conj_conj]
  have R0t_0 : ∀ d : ℂ, d.im = 0 → (starRingEnd ℂ) (R0 om p (q : ℂ) d) = R0 (-(om : ℂ)) p (q : ℂ) d :=
    fun d hd => R0_conj (Complex.ofReal_im q) hd
  have R0u_0 : ∀ d : ℂ, d.im = 0 → (starRingEnd ℂ) (R0 (-(om : ℂ)) p (q : ℂ) d) = R0 om p (q : ℂ) d :=
    fun d hd => by rw [← R0t_0 d hd, Complex.conj_conj]
  have PFt_0 : ∀ d : ℂ, d.im = 0 → (starRingEnd ℂ) (PF om p (q : ℂ) d) = PF (-(om : ℂ)) p (q : ℂ) d :=
    fun d hd => PF_conj (Complex.ofReal_im q) hd
  have PFu_0 : ∀ d : ℂ, d.im = 0 → (starRingEnd ℂ) (PF (-(om : ℂ)) p (q : ℂ) d) = PF om p (q : ℂ) d :=
    fun d hd => by rw [← PFt_0 d hd, Complex.conj_conj]
  rw [toC_thermal_d_i_0_0_t_i q om p beta]
  simp only [thermal.d_i_0_0_t_i, r_0_eq, r_0_same_mass_eq, tlog_eq, tlog_same_mass_eq, tlog_zero_mass_eq, tlog_l_eq, tlog_l_same_mass_eq, tlog_l_zero_mass_eq, tlog_t_eq, tlog_t_same_mass_eq, tlog_t_zero_mass_eq, zm_r_0_eq, zm_r_0_same_mass_eq, z0_r_0_C, z0_r_0_eq, z0_tlog_eq, z0_tlog_t_eq, toC_complex, toC_real, ofR_complex, ofR_real, toC_ofR, toC_zero, toC_energy, toC_bose, map_mul, map_add, map_neg, map_sub, map_inv₀, map_div₀]
  try push_cast
  try simp only [z0_r_0_R, z0_tlog_same_mass_eq, z0_tlog_zero_mass_eq, z0_tlog_t_same_mass_eq, z0_tlog_t_zero_mass_eq, ofReal_energy, ofReal_bose]
  simp only [R0t_0, R0u_0, PFt_0, PFu_0, t_0, u_0, hn, ZL_conj, bose_energy_conj, bose_conj, energy_conj, Complex.conj_ofReal, Complex.conj_I, map_mul, map_add, map_neg, map_sub, map_inv₀, map_div₀, Complex.sub_im, Complex.mul_im, Complex.neg_im, Complex.ofReal_im, Complex.zero_im, mul_zero, zero_mul, add_zero, sub_zero, neg_zero, map_one, map_zero, map_natCast]
  try simp only [mul_inv, inv_neg]
  try ring

theorem conj_thermal_zero_momentum_i_m_m_i (q : ℝ) (om : ℝ) (m1 : ℝ) (m2 : ℝ) (beta : ℝ) (hq : 0 < q) (hom : om ≠ 0) :
    (starRingEnd ℂ) (thermal.zero_momentum.i_m_m_i q om m1 m2 beta) = thermal.zero_momentum.i_m_m_i q om m1 m2 beta := by
  have hn : ∀ n : ℕ, [n.AtLeastTwo] → (starRingEnd ℂ) (OfNat.ofNat n : ℂ) = OfNat.ofNat n := fun n _ => map_ofNat _ n
  rw [toC_thermal_zero_momentum_i_m_m_i q om m1 m2 beta]
  simp only [thermal.zero_momentum.i_m_m_i, r_0_eq, r_0_same_mass_eq, tlog_eq, tlog_same_mass_eq, tlog_zero_mass_eq, tlog_l_eq, tlog_l_same_mass_eq, tlog_l_zero_mass_eq, tlog_t_eq, tlog_t_same_mass_eq, tlog_t_zero_mass_eq, zm_r_0_eq, zm_r_0_same_mass_eq, z0_r_0_C, z0_r_0_eq, z0_tlog_eq, z0_tlog_t_eq, toC_complex, toC_real, ofR_complex, ofR_real, toC_ofR, toC_zero, toC_energy, toC_bose, map_mul, map_add, map_neg, map_sub, map_inv₀, map_div₀]
  try push_cast
  try simp only [z0_r_0_R, z0_tlog_same_mass_eq, z0_tlog_zero_mass_eq, z0_tlog_t_same_mass_eq, z0_tlog_t_zero_mass_eq, ofReal_energy, ofReal_bose]
  simp only [hn, R0, bose_energy_conj, bose_conj, energy_conj, Complex.conj_ofReal, Complex.conj_I, map_mul, map_add, map_neg, map_sub, map_inv₀, map_div₀, Complex.sub_im, Complex.mul_im, Complex.neg_im, Complex.ofReal_im, Complex.zero_im, mul_zero, zero_mul, add_zero, sub_zero, neg_zero, map_one, map_zero, map_natCast]
  try simp only [mul_inv, inv_neg]
  try ring

theorem conj_thermal_zero_momentum_i_m_m_i_same_mass (q : ℝ) (om : ℝ) (m : ℝ) (beta : ℝ) (hq : 0 < q) (hom : om ≠ 0) :
    (starRingEnd ℂ) (thermal.zero_momentum.i_m_m_i_same_mass q om m beta) = thermal.zero_momentum.i_m_m_i_same_mass q om m beta := by
  have hn : ∀ n : ℕ, [n.AtLeastTwo] → (starRingEnd ℂ) (OfNat.ofNat n : ℂ) = OfNat.ofNat n := fun n _ => map_ofNat _ n
  rw [toC_thermal_zero_momentum_i_m_m_i_same_mass q om m beta]
  simp only [thermal.zero_momentum.i_m_m_i_same_mass, r_0_eq, r_0_same_mass_eq, tlog_eq, tlog_same_mass_eq, tlog_zero_mass_eq, tlog_l_eq, tlog_l_same_mass_eq, tlog_l_zero_mass_eq, tlog_t_eq, tlog_t_same_mass_eq, tlog_t_zero_mass_eq, zm_r_0_eq, zm_r_0_same_mass_eq, z0_r_0_C, z0_r_0_eq, z0_tlog_eq, z0_tlog_t_eq, toC_complex, toC_real, ofR_complex, ofR_real, toC_ofR, toC_zero, toC_energy, toC_bose, map_mul, map_add, map_neg, map_sub, map_inv₀, map_div₀]
  try push_cast
  try simp only [z0_r_0_R, z0_tlog_same_mass_eq, z0_tlog_zero_mass_eq, z0_tlog_t_same_mass_eq, z0_tlog_t_zero_mass_eq, ofReal_energy, ofReal_bose]
  simp only [hn, R0, bose_energy_conj, bose_conj, energy_conj, Complex.conj_ofReal, Complex.conj_I, map_mul, map_add, map_neg, map_sub, map_inv₀, map_div₀, Complex.sub_im, Complex.mul_im, Complex.neg_im, Complex.ofReal_im, Complex.zero_im, mul_zero, zero_mul, add_zero, sub_zero, neg_zero, map_one, map_zero, map_natCast]
  try simp only [mul_inv, inv_neg]
  try ring

theorem conj_thermal_zero_momentum_i_m_0_i (q : ℝ) (om : ℝ) (m : ℝ) (beta : ℝ) (hq : 0 < q) (hom : om ≠ 0) :
    (starRingEnd ℂ) (thermal.zero_momentum.i_m_0_i q om m beta) = thermal.zero_momentum.i_m_0_i q om m beta := by
  have hn : ∀ n : ℕ, [n.AtLeastTwo] → (starRingEnd ℂ) (OfNat.ofNat n : ℂ) = OfNat.ofNat n := fun n _ => map_ofNat _ n
  rw [toC_thermal_zero_momentum_i_m_0_i q om m beta]
  simp only [thermal.zero_momentum.i_m_0_i, r_0_eq, r_0_same_mass_eq, tlog_eq, tlog_same_mass_eq, tlog_zero_mass_eq, tlog_l_eq, tlog_l_same_mass_eq, tlog_l_zero_mass_eq, tlog_t_eq, tlog_t_same_mass_eq, tlog_t_zero_mass_eq, zm_r_0_eq, zm_r_0_same_mass_eq, z0_r_0_C, z0_r_0_eq, z0_tlog_eq, z0_tlog_t_eq, toC_complex, toC_real, ofR_complex, ofR_real, toC_ofR, toC_zero, toC_energy, toC_bose, map_mul, map_add, map_neg, map_sub, map_inv₀, map_div₀]
  try push_cast
  try simp only [z0_r_0_R, z0_tlog_same_mass_eq, z0_tlog_zero_mass_eq, z0_tlog_t_same_mass_eq, z0_tlog_t_zero_mass_eq, ofReal_energy, ofReal_bose]
  simp only [hn, R0, bose_energy_conj, bose_conj, energy_conj, Complex.conj_ofReal, Complex.conj_I, map_mul, map_add, map_neg, map_sub, map_inv₀, map_div₀, Complex.sub_im, Complex.mul_im, Complex.neg_im, Complex.ofReal_im, Complex.zero_im, mul_zero, zero_mul, add_zero, sub_zero, neg_zero, map_one, map_zero, map_natCast]
  try simp only [mul_inv, inv_neg]
  try ring

theorem conj_thermal_zero_momentum_i_0_0_i (q : ℝ) (om : ℝ) (beta : ℝ) (hq : 0 < q) (hom : om ≠ 0) :
    (starRingEnd ℂ) (thermal.zero_momentum.i_0_0_i q om beta) = thermal.zero_momentum.i_0_0_i q om beta := by
  have hn : ∀ n : ℕ, [n.AtLeastTwo] → (starRingEnd ℂ) (OfNat.ofNat n : ℂ) = OfNat.ofNat n := fun n _ => map_ofNat _ n
  rw [toC_thermal_zero_momentum_i_0_0_i q om beta]
  simp only [thermal.zero_momentum.i_0_0_i, r_0_eq, r_0_same_mass_eq, tlog_eq, tlog_same_mass_eq, tlog_zero_mass_eq, tlog_l_eq, tlog_l_same_mass_eq, tlog_l_zero_mass_eq, tlog_t_eq, tlog_t_same_mass_eq, tlog_t_zero_mass_eq, zm_r_0_eq, zm_r_0_same_mass_eq, z0_r_0_C, z0_r_0_eq, z0_tlog_eq, z0_tlog_t_eq, toC_complex, toC_real, ofR_complex, ofR_real, toC_ofR, toC_zero, toC_energy, toC_bose, map_mul, map_add, map_neg, map_sub, map_inv₀, map_div₀]
  try push_cast
  try simp only [z0_r_0_R, z0_tlog_same_mass_eq, z0_tlog_zero_mass_eq, z0_tlog_t_same_mass_eq, z0_tlog_t_zero_mass_eq, ofReal_energy, ofReal_bose]
  simp only [hn, R0, bose_energy_conj, bose_conj, energy_conj, Complex.conj_ofReal, Complex.conj_I, map_mul, map_add, map_neg, map_sub, map_inv₀, map_div₀, Complex.sub_im, Complex.mul_im, Complex.neg_im, Complex.ofReal_im, Complex.zero_im, mul_zero, zero_mul, add_zero, sub_zero, neg_zero, map_one, map_zero, map_natCast]
  try simp only [mul_inv, inv_neg]
  try ring

theorem conj_thermal_zero_momentum_i_m_m_l_i (q : ℝ) (om : ℝ) (m1 : ℝ) (m2 : ℝ) (beta : ℝ) (hq : 0 < q) (hom : om ≠ 0) :
    (starRingEnd ℂ) (thermal.zero_momentum.i_m_m_l_i q om m1 m2 beta) = thermal.zero_momentum.i_m_m_l_i q om m1 m2 beta := by
  have hn : ∀ n : ℕ, [n.AtLeastTwo] → (starRingEnd ℂ) (OfNat.ofNat n : ℂ) = OfNat.ofNat n := fun n _ => map_ofNat _ n
  rw [toC_thermal_zero_momentum_i_m_m_l_i q om m1 m2 beta]
  simp only [thermal.zero_momentum.i_m_m_l_i, r_0_eq, r_0_same_mass_eq, tlog_eq, tlog_same_mass_eq, tlog_zero_mass_eq, tlog_l_eq, tlog_l_same_mass_eq, tlog_l_zero_mass_eq, tlog_t_eq, tlog_t_same_mass_eq, tlog_t_zero_mass_eq, zm_r_0_eq, zm_r_0_same_mass_eq, z0_r_0_C, z0_r_0_eq, z0_tlog_eq, z0_tlog_t_eq, toC_complex, toC_real, ofR_complex, ofR_real, toC_ofR, toC_zero, toC_energy, toC_bose, map_mul, map_add, map_neg, map_sub, map_inv₀, map_div₀]
  try push_cast
  try simp only [z0_r_0_R, z0_tlog_same_mass_eq, z0_tlog_zero_mass_eq, z0_tlog_t_same_mass_eq, z0_tlog_t_zero_mass_eq, ofReal_energy, ofReal_bose]
  simp only [hn, R0, bose_energy_conj, bose_conj, energy_conj, Complex.conj_ofReal, Complex.conj_I, map_mul, map_add, map_neg, map_sub, map_inv₀, map_div₀, Complex.sub_im, Complex.mul_im, Complex.neg_im, Complex.ofReal_im, Complex.zero_im, mul_zero, zero_mul, add_zero, sub_zero, neg_zero, map_one, map_zero, map_natCast]
  try simp only [mul_inv, inv_neg]
  try ring

theorem conj_thermal_zero_momentum_i_m_m_l_i_same_mass (q : ℝ) (om : ℝ) (m : ℝ) (beta : ℝ) (hq : 0 < q) (hom : om ≠ 0) :
    (starRingEnd ℂ) (thermal.zero_momentum.i_m_m_l_i_same_mass q om m beta) = thermal.zero_momentum.i_m_m_l_i_same_mass q om m beta := by
  have hn : ∀ n : ℕ, [n.AtLeastTwo] → (starRingEnd ℂ) (OfNat.ofNat n : ℂ) = OfNat.ofNat n := fun n _ => map_ofNat _ n
  rw [toC_thermal_zero_momentum_i_m_m_l_i_same_mass q om m beta]
  simp only [thermal.zero_momentum.i_m_m_l_i_same_mass, r_0_eq, r_0_same_mass_eq, tlog_eq, tlog_same_mass_eq, tlog_zero_mass_eq, tlog_l_eq, tlog_l_same_mass_eq, tlog_l_zero_mass_eq, tlog_t_eq, tlog_t_same_mass_eq, tlog_t_zero_mass_eq, zm_r_0_eq, zm_r_0_same_mass_eq, z0_r_0_C, z0_r_0_eq, z0_tlog_eq, z0_tlog_t_eq, toC_complex, toC_real, ofR_complex, ofR_real, toC_ofR, toC_zero, toC_energy, toC_bose, map_mul, map_add, map_neg, map_sub, map_inv₀, map_div₀]
  try push_cast
  try simp only [z0_r_0_R, z0_tlog_same_mass_eq, z0_tlog_zero_mass_eq, z0_tlog_t_same_mass_eq, z0_tlog_t_zero_mass_eq, ofReal_energy, ofReal_bose]
  simp only [hn, R0, bose_energy_conj, bose_conj, energy_conj, Complex.conj_ofReal, Complex.conj_I, map_mul, map_add, map_neg, map_sub, map_inv₀, map_div₀, Complex.sub_im, Complex.mul_im, Complex.neg_im, Complex.ofReal_im, Complex.zero_im, mul_zero, zero_mul, add_zero, sub_zero, neg_zero, map_one, map_zero, map_natCast]
  try simp only [mul_inv, inv_neg]
  try ring

theorem conj_thermal_zero_momentum_i_m_0_l_i (q : ℝ) (om : ℝ) (m : ℝ) (beta : ℝ) (hq : 0 < q) (hom : om ≠ 0) :
    (starRingEnd ℂ) (thermal.zero_momentum.i_m_0_l_i q om m beta) = thermal.zero_momentum.i_m_0_l_i q om m beta := by
  have hn : ∀ n : ℕ, [n.AtLeastTwo] → (starRingEnd ℂ) (OfNat.ofNat n : ℂ) = OfNat.ofNat n := fun n _ => map_ofNat _ n
  rw [toC_thermal_zero_momentum_i_m_0_l_i q om m beta]
  simp only [thermal.zero_momentum.i_m_0_l_i, r_0_eq, r_0_same_mass_eq, tlog_eq, tlog_same_mass_eq, tlog_zero_mass_eq, tlog_l_eq, tlog_l_same_mass_eq, tlog_l_zero_mass_eq, tlog_t_eq, tlog_t_same_mass_eq, tlog_t_zero_mass_eq, zm_r_0_eq, zm_r_0_same_mass_eq, z0_r_0_C, z0_r_0_eq, z0_tlog_eq, z0_tlog_t_eq, toC_complex, toC_real, ofR_complex, ofR_real, toC_ofR, toC_zero, toC_energy, toC_bose, map_mul, map_add, map_neg, map_sub, map_inv₀, map_div₀]
  try push_cast
  try simp only [z0_r_0_R, z0_tlog_same_mass_eq, z0_tlog_zero_mass_eq, z0_tlog_t_same_mass_eq, z0_tlog_t_zero_mass_eq, ofReal_energy, ofReal_bose]
  simp only [hn, R0, bose_energy_conj, bose_conj, energy_conj, Complex.conj_ofReal, Complex.conj_I, map_mul, map_add, map_neg, map_sub, map_inv₀, map_div₀, Complex.sub_im, Complex.mul_im, Complex.neg_im, Complex.ofReal_im, Complex.zero_im, mul_zero, zero_mul, add_zero, sub_zero, neg_zero, map_one, map_zero, map_natCast]
  try simp only [mul_inv, inv_neg]
  try ring

theorem conj_thermal_zero_momentum_i_0_0_l_i (q : ℝ) (om : ℝ) (beta : ℝ) (hq : 0 < q) (hom : om ≠ 0) :
    (starRingEnd ℂ) (thermal.zero_momentum.i_0_0_l_i q om beta) = thermal.zero_momentum.i_0_0_l_i q om beta := by
  have hn : ∀ n : ℕ, [n.AtLeastTwo] → (starRingEnd ℂ) (OfNat.ofNat n : ℂ) = OfNat.ofNat n := fun n _ => map_ofNat _ n
  rw [toC_thermal_zero_momentum_i_0_0_l_i q om beta]
  simp only [thermal.zero_momentum.i_0_0_l_i, r_0_eq, r_0_same_mass_eq, tlog_eq, tlog_same_mass_eq, tlog_zero_mass_eq, tlog_l_eq, tlog_l_same_mass_eq, tlog_l_zero_mass_eq, tlog_t_eq, tlog_t_same_mass_eq, tlog_t_zero_mass_eq, zm_r_0_eq, zm_r_0_same_mass_eq, z0_r_0_C, z0_r_0_eq, z0_tlog_eq, z0_tlog_t_eq, toC_complex, toC_real, ofR_complex, ofR_real, toC_ofR, toC_zero, toC_energy, toC_bose, map_mul, map_add, map_neg, map_sub, map_inv₀, map_div₀]
  try push_cast
  try simp only [z0_r_0_R, z0_tlog_same_mass_eq, z0_tlog_zero_mass_eq, z0_tlog_t_same_mass_eq, z0_tlog_t_zero_mass_eq, ofReal_energy, ofReal_bose]
  simp only [hn, R0, bose_energy_conj, bose_conj, energy_conj, Complex.conj_ofReal, Complex.conj_I, map_mul, map_add, map_neg, map_sub, map_inv₀, map_div₀, Complex.sub_im, Complex.mul_im, Complex.neg_im, Complex.ofReal_im, Complex.zero_im, mul_zero, zero_mul, add_zero, sub_zero, neg_zero, map_one, map_zero, map_natCast]
  try simp only [mul_inv, inv_neg]
  try ring

theorem conj_thermal_zero_momentum_i_m_m_t_i (q : ℝ) (om : ℝ) (m1 : ℝ) (m2 : ℝ) (beta : ℝ) (hq : 0 < q) (hom : om ≠ 0) :
    (starRingEnd ℂ) (thermal.zero_momentum.i_m_m_t_i q om m1 m2 beta) = thermal.zero_momentum.i_m_m_t_i q om m1 m2 beta := by
  have hn : ∀ n : ℕ, [n.AtLeastTwo] → (starRingEnd ℂ) (OfNat.ofNat n : ℂ) = OfNat.ofNat n := fun n _ => map_ofNat _ n
  rw [toC_thermal_zero_momentum_i_m_m_t_i q om m1 m2 beta]
  simp only [thermal.zero_momentum.i_m_m_t_i, thermal.zero_momentum.i_m_m_l_i, r_0_eq, r_0_same_mass_eq, tlog_eq, tlog_same_mass_eq, tlog_zero_mass_eq, tlog_l_eq, tlog_l_same_mass_eq, tlog_l_zero_mass_eq, tlog_t_eq, tlog_t_same_mass_eq, tlog_t_zero_mass_eq, zm_r_0_eq, zm_r_0_same_mass_eq, z0_r_0_C, z0_r_0_eq, z0_tlog_eq, z0_tlog_t_eq, toC_complex, toC_real, ofR_complex, ofR_real, toC_ofR, toC_zero, toC_energy, toC_bose, map_mul, map_add, map_neg, map_sub, map_inv₀, map_div₀]
  try push_cast
  try simp only [z0_r_0_R, z0_tlog_same_mass_eq, z0_tlog_zero_mass_eq, z0_tlog_t_same_mass_eq, z0_tlog_t_zero_mass_eq, ofReal_energy, ofReal_bose]
  simp only [hn, R0, bose_energy_conj, bose_conj, energy_conj, Complex.conj_ofReal, Complex.conj_I, map_mul, map_add, map_neg, map_sub, map_inv₀, map_div₀, Complex.sub_im, Complex.mul_im, Complex.neg_im, Complex.ofReal_im, Complex.zero_im, mul_zero, zero_mul, add_zero, sub_zero, neg_zero, map_one, map_zero, map_natCast]
  try simp only [mul_inv, inv_neg]
  try ring

theorem conj_thermal_zero_momentum_i_m_m_t_i_same_mass (q : ℝ) (om : ℝ) (m : ℝ) (beta : ℝ) (hq : 0 < q) (hom : om ≠ 0) :
    (starRingEnd ℂ) (thermal.zero_momentum.i_m_m_t_i_same_mass q om m beta) = thermal.zero_momentum.i_m_m_t_i_same_mass q om m beta := by
  have hn : ∀ n : ℕ, [n.AtLeastTwo] → (starRingEnd ℂ) (OfNat.ofNat n : ℂ) = OfNat.ofNat n := fun n _ => map_ofNat _ n
  rw [toC_thermal_zero_momentum_i_m_m_t_i_same_mass q om m beta]
  simp only [thermal.zero_momentum.i_m_m_t_i_same_mass, thermal.zero_momentum.i_m_m_l_i_same_mass, r_0_eq, r_0_same_mass_eq, tlog_eq, tlog_same_mass_eq, tlog_zero_mass_eq, tlog_l_eq, tlog_l_same_mass_eq, tlog_l_zero_mass_eq, tlog_t_eq, tlog_t_same_mass_eq, tlog_t_zero_mass_eq, zm_r_0_eq, zm_r_0_same_mass_eq, z0_r_0_C, z0_r_0_eq, z0_tlog_eq, z0_tlog_t_eq, toC_complex, toC_real, ofR_complex, ofR_real, toC_ofR, toC_zero, toC_energy, toC_bose, map_mul, map_add, map_neg, map_sub, map_inv₀, map_div₀]
  try push_cast
  try simp only [z0_r_0_R, z0_tlog_same_mass_eq, z0_tlog_zero_mass_eq, z0_tlog_t_same_mass_eq, z0_tlog_t_zero_mass_eq, ofReal_energy, ofReal_bose]
  simp only [hn, R0, bose_energy_conj, bose_conj, energy_conj, Complex.conj_ofReal, Complex.conj_I, map_mul, map_add, map_neg, map_sub, map_inv₀, map_div₀, Complex.sub_im, Complex.mul_im, Complex.neg_im, Complex.ofReal_im, Complex.zero_im, mul_zero, zero_mul, add_zero, sub_zero, neg_zero, map_one, map_zero, map_natCast]
  try simp only [mul_inv, inv_neg]
  try ring

theorem conj_thermal_zero_momentum_i_m_0_t_i (q : ℝ) (om : ℝ) (m : ℝ) (beta : ℝ) (hq : 0 < q) (hom : om ≠ 0) :
    (starRingEnd ℂ) (thermal.zero_momentum.i_m_0_t_i q om m beta) = thermal.zero_momentum.i_m_0_t_i q om m beta := by
  have hn : ∀ n : ℕ, [n.AtLeastTwo] → (starRingEnd ℂ) (OfNat.ofNat n : ℂ) = OfNat.ofNat n := fun n _ => map_ofNat _ n
  rw [toC_thermal_zero_momentum_i_m_0_t_i q om m beta]
  simp only [thermal.zero_momentum.i_m_0_t_i, thermal.zero_momentum.i_m_0_l_i, r_0_eq, r_0_same_mass_eq, tlog_eq, tlog_same_mass_eq, tlog_zero_mass_eq, tlog_l_eq, tlog_l_same_mass_eq, tlog_l_zero_mass_eq, tlog_t_eq, tlog_t_same_mass_eq, tlog_t_zero_mass_eq, zm_r_0_eq, zm_r_0_same_mass_eq, z0_r_0_C, z0_r_0_eq, z0_tlog_eq, z0_tlog_t_eq, toC_complex, toC_real, ofR_complex, ofR_real, toC_ofR, toC_zero, toC_energy, toC_bose, map_mul, map_add, map_neg, map_sub, map_inv₀, map_div₀]
  try push_cast
  try simp only [z0_r_0_R, z0_tlog_same_mass_eq, z0_tlog_zero_mass_eq, z0_tlog_t_same_mass_eq, z0_tlog_t_zero_mass_eq, ofReal_energy, ofReal_bose]
  simp only [hn, R0, bose_energy_conj, bose_conj, energy_conj, Complex.conj_ofReal, Complex.conj_I, map_mul, map_add, map_neg, map_sub, map_inv₀, map_div₀, Complex.sub_im, Complex.mul_im, Complex.neg_im, Complex.ofReal_im, Complex.zero_im, mul_zero, zero_mul, add_zero, sub_zero, neg_zero, map_one, map_zero, map_natCast]
  try simp only [mul_inv, inv_neg]
  try ring

theorem conj_thermal_zero_momentum_i_0_0_t_i (q : ℝ) (om : ℝ) (beta : ℝ) (hq : 0 < q) (hom : om ≠ 0) :
    (starRingEnd ℂ) (thermal.zero_momentum.i_0_0_t_i q om beta) = thermal.zero_momentum.i_0_0_t_i q om beta := by
  have hn : ∀ n : ℕ, [n.AtLeastTwo] → (starRingEnd ℂ) (OfNat.ofNat n : ℂ) = OfNat.ofNat n := fun n _ => map_ofNat _ n
  rw [toC_thermal_zero_momentum_i_0_0_t_i q om beta]
  simp only [thermal.zero_momentum.i_0_0_t_i, thermal.zero_momentum.i_0_0_l_i, r_0_eq, r_0_same_mass_eq, tlog_eq, tlog_same_mass_eq, tlog_zero_mass_eq, tlog_l_eq, tlog_l_same_mass_eq, tlog_l_zero_mass_eq, tlog_t_eq, tlog_t_same_mass_eq, tlog_t_zero_mass_eq, zm_r_0_eq, zm_r_0_same_mass_eq, z0_r_0_C, z0_r_0_eq, z0_tlog_eq, z0_tlog_t_eq, toC_complex, toC_real, ofR_complex, ofR_real, toC_ofR, toC_zero, toC_energy, toC_bose, map_mul, map_add, map_neg, map_sub, map_inv₀, map_div₀]
  try push_cast
  try simp only [z0_r_0_R, z0_tlog_same_mass_eq, z0_tlog_zero_mass_eq, z0_tlog_t_same_mass_eq, z0_tlog_t_zero_mass_eq, ofReal_energy, ofReal_bose]
  simp only [hn, R0, bose_energy_conj, bose_conj, energy_conj, Complex.conj_ofReal, Complex.conj_I, map_mul, map_add, map_neg, map_sub, map_inv₀, map_div₀, Complex.sub_im, Complex.mul_im, Complex.neg_im, Complex.ofReal_im, Complex.zero_im, mul_zero, zero_mul, add_zero, sub_zero, neg_zero, map_one, map_zero, map_natCast]
  try simp only [mul_inv, inv_neg]
  try ring

theorem conj_thermal_zero_momentum_d_i_m_m_i (q : ℝ) (om : ℝ) (m1 : ℝ) (m2 : ℝ) (beta : ℝ) (hq : 0 < q) (hom : om ≠ 0) :
    (starRingEnd ℂ) (thermal.zero_momentum.d_i_m_m_i q om m1 m2 beta) = thermal.zero_momentum.d_i_m_m_i q om m1 m2 beta := by
  have hn : ∀ n : ℕ, [n.AtLeastTwo] → (starRingEnd ℂ) (OfNat.ofNat n : ℂ) = OfNat.ofNat n := fun n _ => map_ofNat _ n
  rw [toC_thermal_zero_momentum_d_i_m_m_i q om m1 m2 beta]
  simp only [thermal.zero_momentum.d_i_m_m_i, r_0_eq, r_0_same_mass_eq, tlog_eq, tlog_same_mass_eq, tlog_zero_mass_eq, tlog_l_eq, tlog_l_same_mass_eq, tlog_l_zero_mass_eq, tlog_t_eq, tlog_t_same_mass_eq, tlog_t_zero_mass_eq, zm_r_0_eq, zm_r_0_same_mass_eq, z0_r_0_C, z0_r_0_eq, z0_tlog_eq, z0_tlog_t_eq, toC_complex, toC_real, ofR_complex, ofR_real, toC_ofR, toC_zero, toC_energy, toC_bose, map_mul, map_add, map_neg, map_sub, map_inv₀, map_div₀]
  try push_cast
  try simp only [z0_r_0_R, z0_tlog_same_mass_eq, z0_tlog_zero_mass_eq, z0_tlog_t_same_mass_eq, z0_tlog_t_zero_mass_eq, ofReal_energy, ofReal_bose]
  simp only [hn, R0, bose_energy_conj, bose_conj, energy_conj, Complex.conj_ofReal, Complex.conj_I, map_mul, map_add, map_neg, map_sub, map_inv₀, map_div₀, Complex.sub_im, Complex.mul_im, Complex.neg_im, Complex.ofReal_im, Complex.zero_im, mul_zero, zero_mul, add_zero, sub_zero, neg_zero, map_one, map_zero, map_natCast]
  try simp only [mul_inv, inv_neg]
  try ring

theorem conj_thermal_zero_momentum_d_i_m_m_i_same_mass (q : ℝ) (om : ℝ) (m : ℝ) (beta : ℝ) (hq : 0 < q) (hom : om ≠ 0) :
    (starRingEnd ℂ) (thermal.zero_momentum.d_i_m_m_i_same_mass q om m beta) = thermal.zero_momentum.d_i_m_m_i_same_mass q om m beta := by
  have hn : ∀ n : ℕ, [n.AtLeastTwo] → (starRingEnd ℂ) (OfNat.ofNat n : ℂ) = OfNat.ofNat n := fun n _ => map_ofNat _ n
  rw [toC_thermal_zero_momentum_d_i_m_m_i_same_mass q om m beta]
  simp only [thermal.zero_momentum.d_i_m_m_i_same_mass, r_0_eq, r_0_same_mass_eq, tlog_eq, tlog_same_mass_eq, tlog_zero_mass_eq, tlog_l_eq, tlog_l_same_mass_eq, tlog_l_zero_mass_eq, tlog_t_eq, tlog_t_same_mass_eq, tlog_t_zero_mass_eq, zm_r_0_eq, zm_r_0_same_mass_eq, z0_r_0_C, z0_r_0_eq, z0_tlog_eq, z0_tlog_t_eq, toC_complex, toC_real, ofR_complex, ofR_real, toC_ofR, toC_zero, toC_energy, toC_bose, map_mul, map_add, map_neg, map_sub, map_inv₀, map_div₀]
  try push_cast
  try simp only [z0_r_0_R, z0_tlog_same_mass_eq, z0_tlog_zero_mass_eq, z0_tlog_t_same_mass_eq, z0_tlog_t_zero_mass_eq, ofReal_energy, ofReal_bose]
  simp only [hn, R0, bose_energy_conj, bose_conj, energy_conj, Complex.conj_ofReal, Complex.conj_I, map_mul, map_add, map_neg, map_sub, map_inv₀, map_div₀, Complex.sub_im, Complex.mul_im, Complex.neg_im, Complex.ofReal_im, Complex.zero_im, mul_zero, zero_mul, add_zero, sub_zero, neg_zero, map_one, map_zero, map_natCast]
  try simp only [mul_inv, inv_neg]
  try ring

theorem conj_thermal_zero_momentum_d_i_m_0_i (q : ℝ) (om : ℝ) (m : ℝ) (beta : ℝ) (hq : 0 < q) (hom : om ≠ 0) :
    (starRingEnd ℂ) (thermal.zero_momentum.d_i_m_0_i q om m beta) = thermal.zero_momentum.d_i_m_0_i q om m beta := by
  have hn : ∀ n : ℕ, [n.AtLeastTwo] → (starRingEnd ℂ) (OfNat.ofNat n : ℂ) = OfNat.ofNat n := fun n _ => map_ofNat _ n
  rw [toC_thermal_zero_momentum_d_i_m_0_i q om m beta]
  simp only [thermal.zero_momentum.d_i_m_0_i, r_0_eq, r_0_same_mass_eq, tlog_eq, tlog_same_mass_eq, tlog_zero_mass_eq, tlog_l_eq, tlog_l_same_mass_eq, tlog_l_zero_mass_eq, tlog_t_eq, tlog_t_same_mass_eq, tlog_t_zero_mass_eq, zm_r_0_eq, zm_r_0_same_mass_eq, z0_r_0_C, z0_r_0_eq, z0_tlog_eq, z0_tlog_t_eq, toC_complex, toC_real, ofR_complex, ofR_real, toC_ofR, toC_zero, toC_energy, toC_bose, map_mul, map_add, map_neg, map_sub, map_inv₀, map_div₀]
  try push_cast
  try simp only [z0_r_0_R, z0_tlog_same_mass_eq, z0_tlog_zero_mass_eq, z0_tlog_t_same_mass_eq, z0_tlog_t_zero_mass_eq, ofReal_energy, ofReal_bose]
  simp only [hn, R0, bose_energy_conj, bose_conj, energy_conj, Complex.conj_ofReal, Complex.conj_I, map_mul, map_add, map_neg, map_sub, map_inv₀, map_div₀, Complex.sub_im, Complex.mul_im, Complex.neg_im, Complex.ofReal_im, Complex.zero_im, mul_zero, zero_mul, add_zero, sub_zero, neg_zero, map_one, map_zero, map_natCast]
  try simp only [mul_inv, inv_neg]
  try ring

theorem conj_thermal_zero_momentum_d_i_0_0_i (q : ℝ) (om : ℝ) (beta : ℝ) (hq : 0 < q) (hom : om ≠ 0) :
    (starRingEnd ℂ) (thermal.zero_momentum.d_i_0_0_i q om beta) = thermal.zero_momentum.d_i_0_0_i q om beta := by
  have hn : ∀ n : ℕ, [n.AtLeastTwo] → (starRingEnd ℂ) (OfNat.ofNat n : ℂ) = OfNat.ofNat n := fun n _ => map_ofNat _ n
  rw [toC_thermal_zero_momentum_d_i_0_0_i q om beta]
  simp only [thermal.zero_momentum.d_i_0_0_i, r_0_eq, r_0_same_mass_eq, tlog_eq, tlog_same_mass_eq, tlog_zero_mass_eq, tlog_l_eq, tlog_l_same_mass_eq, tlog_l_zero_mass_eq, tlog_t_eq, tlog_t_same_mass_eq, tlog_t_zero_mass_eq, zm_r_0_eq, zm_r_0_same_mass_eq, z0_r_0_C, z0_r_0_eq, z0_tlog_eq, z0_tlog_t_eq, toC_complex, toC_real, ofR_complex, ofR_real, toC_ofR, toC_zero, toC_energy, toC_bose, map_mul, map_add, map_neg, map_sub, map_inv₀, map_div₀]
  try push_cast
  try simp only [z0_r_0_R, z0_tlog_same_mass_eq, z0_tlog_zero_mass_eq, z0_tlog_t_same_mass_eq, z0_tlog_t_zero_mass_eq, ofReal_energy, ofReal_bose]
  simp only [hn, R0, bose_energy_conj, bose_conj, energy_conj, Complex.conj_ofReal, Complex.conj_I, map_mul, map_add, map_neg, map_sub, map_inv₀, map_div₀, Complex.sub_im, Complex.mul_im, Complex.neg_im, Complex.ofReal_im, Complex.zero_im, mul_zero, zero_mul, add_zero, sub_zero, neg_zero, map_one, map_zero, map_natCast]
  try simp only [mul_inv, inv_neg]
  try ring

theorem conj_thermal_zero_momentum_d_i_m_m_l_i (q : ℝ) (om : ℝ) (m1 : ℝ) (m2 : ℝ) (beta : ℝ) (hq : 0 < q) (hom : om ≠ 0) :
    (starRingEnd ℂ) (thermal.zero_momentum.d_i_m_m_l_i q om m1 m2 beta) = thermal.zero_momentum.d_i_m_m_l_i q om m1 m2 beta := by
  have hn : ∀ n : ℕ, [n.AtLeastTwo] → (starRingEnd ℂ) (OfNat.ofNat n : ℂ) = OfNat.ofNat n := fun n _ => map_ofNat _ n
  rw [toC_thermal_zero_momentum_d_i_m_m_l_i q om m1 m2 beta]
  simp only [thermal.zero_momentum.d_i_m_m_l_i, r_0_eq, r_0_same_mass_eq, tlog_eq, tlog_same_mass_eq, tlog_zero_mass_eq, tlog_l_eq, tlog_l_same_mass_eq, tlog_l_zero_mass_eq, tlog_t_eq, tlog_t_same_mass_eq, tlog_t_zero_mass_eq, zm_r_0_eq, zm_r_0_same_mass_eq, z0_r_0_C, z0_r_0_eq, z0_tlog_eq, z0_tlog_t_eq, toC_complex, toC_real, ofR_complex, ofR_real, toC_ofR, toC_zero, toC_energy, toC_bose, map_mul, map_add, map_neg, map_sub, map_inv₀, map_div₀]
  try push_cast
  try simp only [z0_r_0_R, z0_tlog_same_mass_eq, z0_tlog_zero_mass_eq, z0_tlog_t_same_mass_eq, z0_tlog_t_zero_mass_eq, ofReal_energy, ofReal_bose]
  simp only [hn, R0, bose_energy_conj, bose_conj, energy_conj, Complex.conj_ofReal, Complex.conj_I, map_mul, map_add, map_neg, map_sub, map_inv₀, map_div₀, Complex.sub_im, Complex.mul_im, Complex.neg_im, Complex.ofReal_im, Complex.zero_im, mul_zero, zero_mul, add_zero, sub_zero, neg_zero, map_one, map_zero, map_natCast]
  try simp only [mul_inv, inv_neg]
  try ring

theorem conj_thermal_zero_momentum_d_i_m_m_l_i_same_mass (q : ℝ) (om : ℝ) (m : ℝ) (beta : ℝ) (hq : 0 < q) (hom : om ≠ 0) :
    (starRingEnd ℂ) (thermal.zero_momentum.d_i_m_m_l_i_same_mass q om m beta) = thermal.zero_momentum.d_i_m_m_l_i_same_mass q om m beta := by
  have hn : ∀ n : ℕ, [n.AtLeastTwo] → (starRingEnd ℂ) (OfNat.ofNat n : ℂ) = OfNat.ofNat n := fun n _ => map_ofNat _ n
  rw [toC_thermal_zero_momentum_d_i_m_m_l_i_same_mass q om m beta]
  simp only [thermal.zero_momentum.d_i_m_m_l_i_same_mass, r_0_eq, r_0_same_mass_eq, tlog_eq, tlog_same_mass_eq, tlog_zero_mass_eq, tlog_l_eq, tlog_l_same_mass_eq, tlog_l_zero_mass_eq, tlog_t_eq, tlog_t_same_mass_eq, tlog_t_zero_mass_eq, zm_r_0_eq, zm_r_0_same_mass_eq, z0_r_0_C, z0_r_0_eq, z0_tlog_eq, z0_tlog_t_eq, toC_complex, toC_real, ofR_complex, ofR_real, toC_ofR, toC_zero, toC_energy, toC_bose, map_mul, map_add, map_neg, map_sub, map_inv₀, map_div₀]
  try push_cast
  try simp only [z0_r_0_R, z0_tlog_same_mass_eq, z0_tlog_zero_mass_eq, z0_tlog_t_same_mass_eq, z0_tlog_t_zero_mass_eq, ofReal_energy, ofReal_bose]
  simp only [hn, R0, bose_energy_conj, bose_conj, energy_conj, Complex.conj_ofReal, Complex.conj_I, map_mul, map_add, map_neg, map_sub, map_inv₀, map_div₀, Complex.sub_im, Complex.mul_im, Complex.neg_im, Complex.ofReal_im, Complex.zero_im, mul_zero, zero_mul, add_zero, sub_zero, neg_zero, map_one, map_zero, map_natCast]
  try simp only [mul_inv, inv_neg]
  try ring

theorem conj_thermal_zero_momentum_d_i_m_0_l_i (q : ℝ) (om : ℝ) (m : ℝ) (beta : ℝ) (hq : 0 < q) (hom : om ≠ 0) :
    (starRingEnd ℂ) (thermal.zero_momentum.d_i_m_0_l_i q om m beta) = thermal.zero_momentum.d_i_m_0_l_i q om m beta := by
  have hn : ∀ n : ℕ, [n.AtLeastTwo] → (starRingEnd ℂ) (OfNat.ofNat n : ℂ) = OfNat.ofNat n := fun n _ => map_ofNat _ n
  rw [toC_thermal_zero_momentum_d_i_m_0_l_i q om m beta]
  simp only [thermal.zero_momentum.d_i_m_0_l_i, r_0_eq, r_0_same_mass_eq, tlog_eq, tlog_same_mass_eq, tlog_zero_mass_eq, tlog_l_eq, tlog_l_same_mass_eq, tlog_l_zero_mass_eq, tlog_t_eq, tlog_t_same_mass_eq, tlog_t_zero_mass_eq, zm_r_0_eq, zm_r_0_same_mass_eq, z0_r_0_C, z0_r_0_eq, z0_tlog_eq, z0_tlog_t_eq, toC_complex, toC_real, ofR_complex, ofR_real, toC_ofR, toC_zero, toC_energy, toC_bose, map_mul, map_add, map_neg, map_sub, map_inv₀, map_div₀]
  try push_cast
  try simp only [z0_r_0_R, z0_tlog_same_mass_eq, z0_tlog_zero_mass_eq, z0_tlog_t_same_mass_eq, z0_tlog_t_zero_mass_eq, ofReal_energy, ofReal_bose]
  simp only [hn, R0, bose_energy_conj, bose_conj, energy_conj, Complex.conj_ofReal, Complex.conj_I, map_mul, map_add, map_neg, map_sub, map_inv₀, map_div₀, Complex.sub_im, Complex.mul_im, Complex.neg_im, Complex.ofReal_im, Complex.zero_im, mul_zero, zero_mul, add_zero, sub_zero, neg_zero, map_one, map_zero, map_natCast]
  try simp only [mul_inv, inv_neg]
  try ring

theorem conj_thermal_zero_momentum_d_i_0_0_l_i (q : ℝ) (om : ℝ) (beta : ℝ) (hq : 0 < q) (hom : om ≠ 0) :
    (starRingEnd ℂ) (thermal.zero_momentum.d_i_0_0_l_i q om beta) = thermal.zero_momentum.d_i_0_0_l_i q om beta := by
  have hn : ∀ n : ℕ, [n.AtLeastTwo] → (starRingEnd ℂ) (OfNat.ofNat n : ℂ) = OfNat.ofNat n := fun n _ => map_ofNat _ n
  rw [toC_thermal_zero_momentum_d_i_0_0_l_i q om beta]
  simp only [thermal.zero_momentum.d_i_0_0_l_i, r_0_eq, r_0_same_mass_eq, tlog_eq, tlog_same_mass_eq, tlog_zero_mass_eq, tlog_l_eq, tlog_l_same_mass_eq, tlog_l_zero_mass_eq, tlog_t_eq, tlog_t_same_mass_eq, tlog_t_zero_mass_eq, zm_r_0_eq, zm_r_0_same_mass_eq, z0_r_0_C, z0_r_0_eq, z0_tlog_eq, z0_tlog_t_eq, toC_complex, toC_real, ofR_complex, ofR_real, toC_ofR, toC_zero, toC_energy, toC_bose, map_mul, map_add, map_neg, map_sub, map_inv₀, map_div₀]
  try push_cast
  try simp only [z0_r_0_R, z0_tlog_same_mass_eq, z0_tlog_zero_mass_eq, z0_tlog_t_same_mass_eq, z0_tlog_t_zero_mass_eq, ofReal_energy, ofReal_bose]
  simp only [hn, R0, bose_energy_conj, bose_conj, energy_conj, Complex.conj_ofReal, Complex.conj_I, map_mul, map_add, map_neg, map_sub, map_inv₀, map_div₀, Complex.sub_im, Complex.mul_im, Complex.neg_im, Complex.ofReal_im, Complex.zero_im, mul_zero, zero_mul, add_zero, sub_zero, neg_zero, map_one, map_zero, map_natCast]
  try simp only [mul_inv, inv_neg]
  try ring

theorem conj_thermal_zero_momentum_d_i_m_m_t_i (q : ℝ) (om : ℝ) (m1 : ℝ) (m2 : ℝ) (beta : ℝ) (hq : 0 < q) (hom : om ≠ 0) :
    (starRingEnd ℂ) (thermal.zero_momentum.d_i_m_m_t_i q om m1 m2 beta) = thermal.zero_momentum.d_i_m_m_t_i q om m1 m2 beta := by
  have hn : ∀ n : ℕ, [n.AtLeastTwo] → (starRingEnd ℂ) (OfNat.ofNat n : ℂ) = OfNat.ofNat n := fun n _ => map_ofNat _ n
  rw [toC_thermal_zero_momentum_d_i_m_m_t_i q om m1 m2 beta]
  simp only [thermal.zero_momentum.d_i_m_m_t_i, thermal.zero_momentum.d_i_m_m_l_i, r_0_eq, r_0_same_mass_eq, tlog_eq, tlog_same_mass_eq, tlog_zero_mass_eq, tlog_l_eq, tlog_l_same_mass_eq, tlog_l_zero_mass_eq, tlog_t_eq, tlog_t_same_mass_eq, tlog_t_zero_mass_eq, zm_r_0_eq, zm_r_0_same_mass_eq, z0_r_0_C, z0_r_0_eq, z0_tlog_eq, z0_tlog_t_eq, toC_complex, toC_real, ofR_complex, ofR_real, toC_ofR, toC_zero, toC_energy, toC_bose, map_mul, map_add, map_neg, map_sub, map_inv₀, map_div₀]
  try push_cast
  try simp only [z0_r_0_R, z0_tlog_same_mass_eq, z0_tlog_zero_mass_eq, z0_tlog_t_same_mass_eq, z0_tlog_t_zero_mass_eq, ofReal_energy, ofReal_bose]
  simp only [hn, R0, bose_energy_conj, bose_conj, energy_conj, Complex.conj_ofReal, Complex.conj_I, map_mul, map_add, map_neg, map_sub, map_inv₀, map_div₀, Complex.sub_im, Complex.mul_im, Complex.neg_im, Complex.ofReal_im, Complex.zero_im, mul_zero, zero_mul, add_zero, sub_zero, neg_zero, map_one, map_zero, map_natCast]
  try simp only [mul_inv, inv_neg]
  try ring

theorem conj_thermal_zero_momentum_d_i_m_m_t_i_same_mass (q : ℝ) (om : ℝ) (m : ℝ) (beta : ℝ) (hq : 0 < q) (hom : om ≠ 0) :
    (starRingEnd ℂ) (thermal.zero_momentum.d_i_m_m_t_i_same_mass q om m beta) = thermal.zero_momentum.d_i_m_m_t_i_same_mass q om m beta := by
  have hn : ∀ n : ℕ, [n.AtLeastTwo] → (starRingEnd ℂ) (OfNat.ofNat n : ℂ) = OfNat.ofNat n := fun n _ => map_ofNat _ n
  rw [toC_thermal_zero_momentum_d_i_m_m_t_i_same_mass q om m beta]
  simp only [thermal.zero_momentum.d_i_m_m_t_i_same_mass, thermal.zero_momentum.d_i_m_m_l_i_same_mass, r_0_eq, r_0_same_mass_eq, tlog_eq, tlog_same_mass_eq, tlog_zero_mass_eq, tlog_l_eq, tlog_l_same_mass_eq, tlog_l_zero_mass_eq, tlog_t_eq, tlog_t_same_mass_eq, tlog_t_zero_mass_eq, zm_r_0_eq, zm_r_0_same_mass_eq, z0_r_0_C, z0_r_0_eq, z0_tlog_eq, z0_tlog_t_eq, toC_complex, toC_real, ofR_complex, ofR_real, toC_ofR, toC_zero, toC_energy, toC_bose, map_mul, map_add, map_neg, map_sub, map_inv₀, map_div₀]
  try push_cast
  try simp only [z0_r_0_R, z0_tlog_same_mass_eq, z0_tlog_zero_mass_eq, z0_tlog_t_same_mass_eq, z0_tlog_t_zero_mass_eq, ofReal_energy, ofReal_bose]
  simp only [hn, R0, bose_energy_conj, bose_conj, energy_conj, Complex.conj_ofReal, Complex.conj_I, map_mul, map_add, map_neg, map_sub, map_inv₀, map_div₀, Complex.sub_im, Complex.mul_im, Complex.neg_im, Complex.ofReal_im, Complex.zero_im, mul_zero, zero_mul, add_zero, sub_zero, neg_zero, map_one, map_zero, map_natCast]
  try simp only [mul_inv, inv_neg]
  try ring

theorem conj_thermal_zero_momentum_d_i_m_0_t_i (q : ℝ) (om : ℝ) (m : ℝ) (beta : ℝ) (hq : 0 < q) (hom : om ≠ 0) :
    (starRingEnd ℂ) (thermal.zero_momentum.d_i_m_0_t_i q om m beta) = thermal.zero_momentum.d_i_m_0_t_i q om m beta := by
  have hn : ∀ n : ℕ, [n.AtLeastTwo] → (starRingEnd ℂ) (OfNat.ofNat n : ℂ) = OfNat.ofNat n := fun n _ => map_ofNat _ n
  rw [toC_thermal_zero_momentum_d_i_m_0_t_i q om m beta]
  simp only [thermal.zero_momentum.d_i_m_0_t_i, thermal.zero_momentum.d_i_m_0_l_i, r_0_eq, r_0_same_mass_eq, tlog_eq, tlog_same_mass_eq, tlog_zero_mass_eq, tlog_l_eq, tlog_l_same_mass_eq, tlog_l_zero_mass_eq, tlog_t_eq, tlog_t_same_mass_eq, tlog_t_zero_mass_eq, zm_r_0_eq, zm_r_0_same_mass_eq, z0_r_0_C, z0_r_0_eq, z0_tlog_eq, z0_tlog_t_eq, toC_complex, toC_real, ofR_complex, ofR_real, toC_ofR, toC_zero, toC_energy, toC_bose, map_mul, map_add, map_neg, map_sub, map_inv₀, map_div₀]
  try push_cast
  try simp only [z0_r_0_R, z0_tlog_same_mass_eq, z0_tlog_zero_mass_eq, z0_tlog_t_same_mass_eq, z0_tlog_t_zero_mass_eq, ofReal_energy, ofReal_bose]
  simp only [hn, R0, bose_energy_conj, bose_conj, energy_conj, Complex.conj_ofReal, Complex.conj_I, map_mul, map_add, map_neg, map_sub, map_inv₀, map_div₀, Complex.sub_im, Complex.mul_im, Complex.neg_im, Complex.ofReal_im, Complex.zero_im, mul_zero, zero_mul, add_zero, sub_zero, neg_zero, map_one, map_zero, map_natCast]
  try simp only [mul_inv, inv_neg]
  try ring

theorem conj_thermal_zero_momentum_d_i_0_0_t_i (q : ℝ) (om : ℝ) (beta : ℝ) (hq : 0 < q) (hom : om ≠ 0) :
    (starRingEnd ℂ) (thermal.zero_momentum.d_i_0_0_t_i q om beta) = thermal.zero_momentum.d_i_0_0_t_i q om beta := by
  have hn : ∀ n : ℕ, [n.AtLeastTwo] → (starRingEnd ℂ) (OfNat.ofNat n : ℂ) = OfNat.ofNat n := fun n _ => map_ofNat _ n
  rw [toC_thermal_zero_momentum_d_i_0_0_t_i q om beta]
  simp only [thermal.zero_momentum.d_i_0_0_t_i, thermal.zero_momentum.d_i_0_0_l_i, r_0_eq, r_0_same_mass_eq, tlog_eq, tlog_same_mass_eq, tlog_zero_mass_eq, tlog_l_eq, tlog_l_same_mass_eq, tlog_l_zero_mass_eq, tlog_t_eq, tlog_t_same_mass_eq, tlog_t_zero_mass_eq, zm_r_0_eq, zm_r_0_same_mass_eq, z0_r_0_C, z0_r_0_eq, z0_tlog_eq, z0_tlog_t_eq, toC_complex, toC_real, ofR_complex, ofR_real, toC_ofR, toC_zero, toC_energy, toC_bose, map_mul, map_add, map_neg, map_sub, map_inv₀, map_div₀]
  try push_cast
  try simp only [z0_r_0_R, z0_tlog_same_mass_eq, z0_tlog_zero_mass_eq, z0_tlog_t_same_mass_eq, z0_tlog_t_zero_mass_eq, ofReal_energy, ofReal_bose]
  simp only [hn, R0, bose_energy_conj, bose_conj, energy_conj, Complex.conj_ofReal, Complex.conj_I, map_mul, map_add, map_neg, map_sub, map_inv₀, map_div₀, Complex.sub_im, Complex.mul_im, Complex.neg_im, Complex.ofReal_im, Complex.zero_im, mul_zero, zero_mul, add_zero, sub_zero, neg_zero, map_one, map_zero, map_natCast]
  try simp only [mul_inv, inv_neg]
  try ring

theorem conj_thermal_zero_matsubara_i_m_m_i (q : ℝ) (p : ℝ) (m1 : ℝ) (m2 : ℝ) (beta : ℝ) :
    (starRingEnd ℂ) (thermal.zero_matsubara.i_m_m_i q p m1 m2 beta) = thermal.zero_matsubara.i_m_m_i q p m1 m2 beta := by
  have hn : ∀ n : ℕ, [n.AtLeastTwo] → (starRingEnd ℂ) (OfNat.ofNat n : ℂ) = OfNat.ofNat n := fun n _ => map_ofNat _ n
  rw [toC_thermal_zero_matsubara_i_m_m_i q p m1 m2 beta]
  simp only [thermal.zero_matsubara.i_m_m_i, r_0_eq, r_0_same_mass_eq, tlog_eq, tlog_same_mass_eq, tlog_zero_mass_eq, tlog_l_eq, tlog_l_same_mass_eq, tlog_l_zero_mass_eq, tlog_t_eq, tlog_t_same_mass_eq, tlog_t_zero_mass_eq, zm_r_0_eq, zm_r_0_same_mass_eq, z0_r_0_C, z0_r_0_eq, z0_tlog_eq, z0_tlog_t_eq, toC_complex, toC_real, ofR_complex, ofR_real, toC_ofR, toC_zero, toC_energy, toC_bose, map_mul, map_add, map_neg, map_sub, map_inv₀, map_div₀]
  try push_cast
  try simp only [z0_r_0_R, z0_tlog_same_mass_eq, z0_tlog_zero_mass_eq, z0_tlog_t_same_mass_eq, z0_tlog_t_zero_mass_eq, ofReal_energy, ofReal_bose]
  simp only [hn, ZL_conj, bose_energy_conj, bose_conj, energy_conj, Complex.conj_ofReal, Complex.conj_I, map_mul, map_add, map_neg, map_sub, map_inv₀, map_div₀, Complex.sub_im, Complex.mul_im, Complex.neg_im, Complex.ofReal_im, Complex.zero_im, mul_zero, zero_mul, add_zero, sub_zero, neg_zero, map_one, map_zero, map_natCast]
  try simp only [mul_inv, inv_neg]
  try ring

theorem conj_thermal_zero_matsubara_i_m_0_i (q : ℝ) (p : ℝ) (m : ℝ) (beta : ℝ) :
    (starRingEnd ℂ) (thermal.zero_matsubara.i_m_0_i q p m beta) = thermal.zero_matsubara.i_m_0_i q p m beta := by
  have hn : ∀ n : ℕ, [n.AtLeastTwo] → (starRingEnd ℂ) (OfNat.ofNat n : ℂ) = OfNat.ofNat n := fun n _ => map_ofNat _ n
  rw [toC_thermal_zero_matsubara_i_m_0_i q p m beta]
  simp only [thermal.zero_matsubara.i_m_0_i, r_0_eq, r_0_same_mass_eq, tlog_eq, tlog_same_mass_eq, tlog_zero_mass_eq, tlog_l_eq, tlog_l_same_mass_eq, tlog_l_zero_mass_eq, tlog_t_eq, tlog_t_same_mass_eq, tlog_t_zero_mass_eq, zm_r_0_eq, zm_r_0_same_mass_eq, z0_r_0_C, z0_r_0_eq, z0_tlog_eq, z0_tlog_t_eq, toC_complex, toC_real, ofR_complex, ofR_real, toC_ofR, toC_zero, toC_energy, toC_bose, map_mul, map_add, map_neg, map_sub, map_inv₀, map_div₀]
  try push_cast
  try simp only [z0_r_0_R, z0_tlog_same_mass_eq, z0_tlog_zero_mass_eq, z0_tlog_t_same_mass_eq, z0_tlog_t_zero_mass_eq, ofReal_energy, ofReal_bose]
  simp only [hn, ZL_conj, bose_energy_conj, bose_conj, energy_conj, Complex.conj_ofReal, Complex.conj_I, map_mul, map_add, map_neg, map_sub, map_inv₀, map_div₀, Complex.sub_im, Complex.mul_im, Complex.neg_im, Complex.ofReal_im, Complex.zero_im, mul_zero, zero_mul, add_zero, sub_zero, neg_zero, map_one, map_zero, map_natCast]
  try simp only [mul_inv, inv_neg]
  try ring

theorem conj_thermal_zero_matsubara_i_m_m_l_i (q : ℝ) (p : ℝ) (m1 : ℝ) (m2 : ℝ) (beta : ℝ) :
    (starRingEnd ℂ) (thermal.zero_matsubara.i_m_m_l_i q p m1 m2 beta) = thermal.zero_matsubara.i_m_m_l_i q p m1 m2 beta := by
  have hn : ∀ n : ℕ, [n.AtLeastTwo] → (starRingEnd ℂ) (OfNat.ofNat n : ℂ) = OfNat.ofNat n := fun n _ => map_ofNat _ n
  rw [toC_thermal_zero_matsubara_i_m_m_l_i q p m1 m2 beta]
  simp only [thermal.zero_matsubara.i_m_m_l_i, r_0_eq, r_0_same_mass_eq, tlog_eq, tlog_same_mass_eq, tlog_zero_mass_eq, tlog_l_eq, tlog_l_same_mass_eq, tlog_l_zero_mass_eq, tlog_t_eq, tlog_t_same_mass_eq, tlog_t_zero_mass_eq, zm_r_0_eq, zm_r_0_same_mass_eq, z0_r_0_C, z0_r_0_eq, z0_tlog_eq, z0_tlog_t_eq, toC_complex, toC_real, ofR_complex, ofR_real, toC_ofR, toC_zero, toC_energy, toC_bose, map_mul, map_add, map_neg, map_sub, map_inv₀, map_div₀]
  try push_cast
  try simp only [z0_r_0_R, z0_tlog_same_mass_eq, z0_tlog_zero_mass_eq, z0_tlog_t_same_mass_eq, z0_tlog_t_zero_mass_eq, ofReal_energy, ofReal_bose]
  simp only [hn, ZL_conj, bose_energy_conj, bose_conj, energy_conj, Complex.conj_ofReal, Complex.conj_I, map_mul, map_add, map_neg, map_sub, map_inv₀, map_div₀, Complex.sub_im, Complex.mul_im, Complex.neg_im, Complex.ofReal_im, Complex.zero_im, mul_zero, zero_mul, add_zero, sub_zero, neg_zero, map_one, map_zero, map_natCast]
  try simp only [mul_inv, inv_neg]
  try ring

theorem conj_thermal_zero_matsubara_i_m_0_l_i (q : ℝ) (p : ℝ) (m : ℝ) (beta : ℝ) :
    (starRingEnd ℂ) (thermal.zero_matsubara.i_m_0_l_i q p m beta) = thermal.zero_matsubara.i_m_0_l_i q p m beta := by
  have hn : ∀ n : ℕ, [n.AtLeastTwo] → (starRingEnd ℂ) (OfNat.ofNat n : ℂ) = OfNat.ofNat n := fun n _ => map_ofNat _ n
  rw [toC_thermal_zero_matsubara_i_m_0_l_i q p m beta]
  simp only [thermal.zero_matsubara.i_m_0_l_i, r_0_eq, r_0_same_mass_eq, tlog_eq, tlog_same_mass_eq, tlog_zero_mass_eq, tlog_l_eq, tlog_l_same_mass_eq, tlog_l_zero_mass_eq, tlog_t_eq, tlog_t_same_mass_eq, tlog_t_zero_mass_eq, zm_r_0_eq, zm_r_0_same_mass_eq, z0_r_0_C, z0_r_0_eq, z0_tlog_eq, z0_tlog_t_eq, toC_complex, toC_real, ofR_complex, ofR_real, toC_ofR, toC_zero, toC_energy, toC_bose, map_mul, map_add, map_neg, map_sub, map_inv₀, map_div₀]
  try push_cast
  try simp only [z0_r_0_R, z0_tlog_same_mass_eq, z0_tlog_zero_mass_eq, z0_tlog_t_same_mass_eq, z0_tlog_t_zero_mass_eq, ofReal_energy, ofReal_bose]
  simp only [hn, ZL_conj, bose_energy_conj, bose_conj, energy_conj, Complex.conj_ofReal, Complex.conj_I, map_mul, map_add, map_neg, map_sub, map_inv₀, map_div₀, Complex.sub_im, Complex.mul_im, Complex.neg_im, Complex.ofReal_im, Complex.zero_im, mul_zero, zero_mul, add_zero, sub_zero, neg_zero, map_one, map_zero, map_natCast]
  try simp only [mul_inv, inv_neg]
  try ring

theorem conj_thermal_zero_matsubara_i_m_m_t_i (q : ℝ) (p : ℝ) (m1 : ℝ) (m2 : ℝ) (beta : ℝ) :
    (starRingEnd ℂ) (thermal.zero_matsubara.i_m_m_t_i q p m1 m2 beta) = thermal.zero_matsubara.i_m_m_t_i q p m1 m2 beta := by
  have hn : ∀ n : ℕ, [n.AtLeastTwo] → (starRingEnd ℂ) (OfNat.ofNat n : ℂ) = OfNat.ofNat n := fun n _ => map_ofNat _ n
  rw [toC_thermal_zero_matsubara_i_m_m_t_i q p m1 m2 beta]
  simp only [thermal.zero_matsubara.i_m_m_t_i, r_0_eq, r_0_same_mass_eq, tlog_eq, tlog_same_mass_eq, tlog_zero_mass_eq, tlog_l_eq, tlog_l_same_mass_eq, tlog_l_zero_mass_eq, tlog_t_eq, tlog_t_same_mass_eq, tlog_t_zero_mass_eq, zm_r_0_eq, zm_r_0_same_mass_eq, z0_r_0_C, z0_r_0_eq, z0_tlog_eq, z0_tlog_t_eq, toC_complex, toC_real, ofR_complex, ofR_real, toC_ofR, toC_zero, toC_energy, toC_bose, map_mul, map_add, map_neg, map_sub, map_inv₀, map_div₀]
  try push_cast
  try simp only [z0_r_0_R, z0_tlog_same_mass_eq, z0_tlog_zero_mass_eq, z0_tlog_t_same_mass_eq, z0_tlog_t_zero_mass_eq, ofReal_energy, ofReal_bose]
  simp only [hn, ZL_conj, bose_energy_conj, bose_conj, energy_conj, Complex.conj_ofReal, Complex.conj_I, map_mul, map_add, map_neg, map_sub, map_inv₀, map_div₀, Complex.sub_im, Complex.mul_im, Complex.neg_im, Complex.ofReal_im, Complex.zero_im, mul_zero, zero_mul, add_zero, sub_zero, neg_zero, map_one, map_zero, map_natCast]
  try simp only [mul_inv, inv_neg]
  try ring

theorem conj_thermal_zero_matsubara_i_m_0_t_i (q : ℝ) (p : ℝ) (m : ℝ) (beta : ℝ) :
    (starRingEnd ℂ) (thermal.zero_matsubara.i_m_0_t_i q p m beta) = thermal.zero_matsubara.i_m_0_t_i q p m beta := by
  have hn : ∀ n : ℕ, [n.AtLeastTwo] → (starRingEnd ℂ) (OfNat.ofNat n : ℂ) = OfNat.ofNat n := fun n _ => map_ofNat _ n
  rw [toC_thermal_zero_matsubara_i_m_0_t_i q p m beta]
  simp only [thermal.zero_matsubara.i_m_0_t_i, r_0_eq, r_0_same_mass_eq, tlog_eq, tlog_same_mass_eq, tlog_zero_mass_eq, tlog_l_eq, tlog_l_same_mass_eq, tlog_l_zero_mass_eq, tlog_t_eq, tlog_t_same_mass_eq, tlog_t_zero_mass_eq, zm_r_0_eq, zm_r_0_same_mass_eq, z0_r_0_C, z0_r_0_eq, z0_tlog_eq, z0_tlog_t_eq, toC_complex, toC_real, ofR_complex, ofR_real, toC_ofR, toC_zero, toC_energy, toC_bose, map_mul, map_add, map_neg, map_sub, map_inv₀, map_div₀]
  try push_cast
  try simp only [z0_r_0_R, z0_tlog_same_mass_eq, z0_tlog_zero_mass_eq, z0_tlog_t_same_mass_eq, z0_tlog_t_zero_mass_eq, ofReal_energy, ofReal_bose]
  simp only [hn, ZL_conj, bose_energy_conj, bose_conj, energy_conj, Complex.conj_ofReal, Complex.conj_I, map_mul, map_add, map_neg, map_sub, map_inv₀, map_div₀, Complex.sub_im, Complex.mul_im, Complex.neg_im, Complex.ofReal_im, Complex.zero_im, mul_zero, zero_mul, add_zero, sub_zero, neg_zero, map_one, map_zero, map_natCast]
  try simp only [mul_inv, inv_neg]
  try ring

theorem conj_thermal_zero_matsubara_d_i_m_m_i (q : ℝ) (p : ℝ) (m1 : ℝ) (m2 : ℝ) (beta : ℝ) :
    (starRingEnd ℂ) (thermal.zero_matsubara.d_i_m_m_i q p m1 m2 beta) = thermal.zero_matsubara.d_i_m_m_i q p m1 m2 beta := by
  have hn : ∀ n : ℕ, [n.AtLeastTwo] → (starRingEnd ℂ) (OfNat.ofNat n : ℂ) = OfNat.ofNat n := fun n _ => map_ofNat _ n
  rw [toC_thermal_zero_matsubara_d_i_m_m_i q p m1 m2 beta]
  simp only [thermal.zero_matsubara.d_i_m_m_i, r_0_eq, r_0_same_mass_eq, tlog_eq, tlog_same_mass_eq, tlog_zero_mass_eq, tlog_l_eq, tlog_l_same_mass_eq, tlog_l_zero_mass_eq, tlog_t_eq, tlog_t_same_mass_eq, tlog_t_zero_mass_eq, zm_r_0_eq, zm_r_0_same_mass_eq, z0_r_0_C, z0_r_0_eq, z0_tlog_eq, z0_tlog_t_eq, toC_complex, toC_real, ofR_complex, ofR_real, toC_ofR, toC_zero, toC_energy, toC_bose, map_mul, map_add, map_neg, map_sub, map_inv₀, map_div₀]
  try push_cast
  try simp only [z0_r_0_R, z0_tlog_same_mass_eq, z0_tlog_zero_mass_eq, z0_tlog_t_same_mass_eq, z0_tlog_t_zero_mass_eq, ofReal_energy, ofReal_bose]
  simp only [hn, ZL_conj, bose_energy_conj, bose_conj, energy_conj, Complex.conj_ofReal, Complex.conj_I, map_mul, map_add, map_neg, map_sub, map_inv₀, map_div₀, Complex.sub_im, Complex.mul_im, Complex.neg_im, Complex.ofReal_im, Complex.zero_im, mul_zero, zero_mul, add_zero, sub_zero, neg_zero, map_one, map_zero, map_natCast]
  try simp only [mul_inv, inv_neg]
  try ring

theorem conj_thermal_zero_matsubara_d_i_m_m_l_i (q : ℝ) (p : ℝ) (m1 : ℝ) (m2 : ℝ) (beta : ℝ) :
    (starRingEnd ℂ) (thermal.zero_matsubara.d_i_m_m_l_i q p m1 m2 beta) = thermal.zero_matsubara.d_i_m_m_l_i q p m1 m2 beta := by
  have hn : ∀ n : ℕ, [n.AtLeastTwo] → (starRingEnd ℂ) (OfNat.ofNat n : ℂ) = OfNat.ofNat n := fun n _ => map_ofNat _ n
  rw [toC_thermal_zero_matsubara_d_i_m_m_l_i q p m1 m2 beta]
  simp only [thermal.zero_matsubara.d_i_m_m_l_i, r_0_eq, r_0_same_mass_eq, tlog_eq, tlog_same_mass_eq, tlog_zero_mass_eq, tlog_l_eq, tlog_l_same_mass_eq, tlog_l_zero_mass_eq, tlog_t_eq, tlog_t_same_mass_eq, tlog_t_zero_mass_eq, zm_r_0_eq, zm_r_0_same_mass_eq, z0_r_0_C, z0_r_0_eq, z0_tlog_eq, z0_tlog_t_eq, toC_complex, toC_real, ofR_complex, ofR_real, toC_ofR, toC_zero, toC_energy, toC_bose, map_mul, map_add, map_neg, map_sub, map_inv₀, map_div₀]
  try push_cast
  try simp only [z0_r_0_R, z0_tlog_same_mass_eq, z0_tlog_zero_mass_eq, z0_tlog_t_same_mass_eq, z0_tlog_t_zero_mass_eq, ofReal_energy, ofReal_bose]
  simp only [hn, ZL_conj, bose_energy_conj, bose_conj, energy_conj, Complex.conj_ofReal, Complex.conj_I, map_mul, map_add, map_neg, map_sub, map_inv₀, map_div₀, Complex.sub_im, Complex.mul_im, Complex.neg_im, Complex.ofReal_im, Complex.zero_im, mul_zero, zero_mul, add_zero, sub_zero, neg_zero, map_one, map_zero, map_natCast]
  try simp only [mul_inv, inv_neg]
  try ring

theorem conj_thermal_zero_matsubara_d_i_m_m_t_i (q : ℝ) (p : ℝ) (m1 : ℝ) (m2 : ℝ) (beta : ℝ) :
    (starRingEnd ℂ) (thermal.zero_matsubara.d_i_m_m_t_i q p m1 m2 beta) = thermal.zero_matsubara.d_i_m_m_t_i q p m1 m2 beta := by
  have hn : ∀ n : ℕ, [n.AtLeastTwo] → (starRingEnd ℂ) (OfNat.ofNat n : ℂ) = OfNat.ofNat n := fun n _ => map_ofNat _ n
  rw [toC_thermal_zero_matsubara_d_i_m_m_t_i q p m1 m2 beta]
  simp only [thermal.zero_matsubara.d_i_m_m_t_i, r_0_eq, r_0_same_mass_eq, tlog_eq, tlog_same_mass_eq, tlog_zero_mass_eq, tlog_l_eq, tlog_l_same_mass_eq, tlog_l_zero_mass_eq, tlog_t_eq, tlog_t_same_mass_eq, tlog_t_zero_mass_eq, zm_r_0_eq, zm_r_0_same_mass_eq, z0_r_0_C, z0_r_0_eq, z0_tlog_eq, z0_tlog_t_eq, toC_complex, toC_real, ofR_complex, ofR_real, toC_ofR, toC_zero, toC_energy, toC_bose, map_mul, map_add, map_neg, map_sub, map_inv₀, map_div₀]
  try push_cast
  try simp only [z0_r_0_R, z0_tlog_same_mass_eq, z0_tlog_zero_mass_eq, z0_tlog_t_same_mass_eq, z0_tlog_t_zero_mass_eq, ofReal_energy, ofReal_bose]
  simp only [hn, ZL_conj, bose_energy_conj, bose_conj, energy_conj, Complex.conj_ofReal, Complex.conj_I, map_mul, map_add, map_neg, map_sub, map_inv₀, map_div₀, Complex.sub_im, Complex.mul_im, Complex.neg_im, Complex.ofReal_im, Complex.zero_im, mul_zero, zero_mul, add_zero, sub_zero, neg_zero, map_one, map_zero, map_natCast]
  try simp only [mul_inv, inv_neg]
  try ring

theorem conj_thermal_zero_matsubara_d_i_m_0_t_i (q : ℝ) (p : ℝ) (m : ℝ) (beta : ℝ) :
    (starRingEnd ℂ) (thermal.zero_matsubara.d_i_m_0_t_i q p m beta) = thermal.zero_matsubara.d_i_m_0_t_i q p m beta := by
  have hn : ∀ n : ℕ, [n.AtLeastTwo] → (starRingEnd ℂ) (OfNat.ofNat n : ℂ) = OfNat.ofNat n := fun n _ => map_ofNat _ n
  rw [toC_thermal_zero_matsubara_d_i_m_0_t_i q p m beta]
  simp only [thermal.zero_matsubara.d_i_m_0_t_i, r_0_eq, r_0_same_mass_eq, tlog_eq, tlog_same_mass_eq, tlog_zero_mass_eq, tlog_l_eq, tlog_l_same_mass_eq, tlog_l_zero_mass_eq, tlog_t_eq, tlog_t_same_mass_eq, tlog_t_zero_mass_eq, zm_r_0_eq, zm_r_0_same_mass_eq, z0_r_0_C, z0_r_0_eq, z0_tlog_eq, z0_tlog_t_eq, toC_complex, toC_real, ofR_complex, ofR_real, toC_ofR, toC_zero, toC_energy, toC_bose, map_mul, map_add, map_neg, map_sub, map_inv₀, map_div₀]
  try push_cast
  try simp only [z0_r_0_R, z0_tlog_same_mass_eq, z0_tlog_zero_mass_eq, z0_tlog_t_same_mass_eq, z0_tlog_t_zero_mass_eq, ofReal_energy, ofReal_bose]
  simp only [hn, ZL_conj, bose_energy_conj, bose_conj, energy_conj, Complex.conj_ofReal, Complex.conj_I, map_mul, map_add, map_neg, map_sub, map_inv₀, map_div₀, Complex.sub_im, Complex.mul_im, Complex.neg_im, Complex.ofReal_im, Complex.zero_im, mul_zero, zero_mul, add_zero, sub_zero, neg_zero, map_one, map_zero, map_natCast]
  try simp only [mul_inv, inv_neg]
  try ring

theorem conj_ghost_thermal_self_energy_thermal_part_landau_i (q : ℝ) (om : ℝ) (p : ℝ) (m : ℝ) (beta : ℝ) (hq : 0 < q) (hom : om ≠ 0) :
    (starRingEnd ℂ) (ghost.thermal.self_energy_thermal_part_landau_i q om p m beta) = ghost.thermal.self_energy_thermal_part_landau_i q om p m beta := by
  have hn : ∀ n : ℕ, [n.AtLeastTwo] → (starRingEnd ℂ) (OfNat.ofNat n : ℂ) = OfNat.ofNat n := fun n _ => map_ofNat _ n
  simp only [ghost.thermal.self_energy_thermal_part_landau_i, conj_thermal_i_m_m_i_same_mass q om p m beta hq hom, conj_thermal_i_m_0_i q om p m beta hq hom, conj_thermal_i_0_0_i q om p beta hq hom, conj_thermal_i_m_m_l_i_same_mass q om p m beta hq hom, conj_thermal_i_m_0_l_i q om p m beta hq hom, conj_thermal_i_0_0_l_i q om p beta hq hom, conj_thermal_i_m_m_t_i_same_mass q om p m beta hq hom, conj_thermal_i_m_0_t_i q om p m beta hq hom, conj_thermal_i_0_0_t_i q om p beta hq hom, conj_thermal_d_i_m_m_i_same_mass q om p m beta hq hom, conj_thermal_d_i_m_0_i q om p m beta hq hom, conj_thermal_d_i_0_0_i q om p beta hq hom, conj_thermal_d_i_m_m_l_i_same_mass q om p m beta hq hom, conj_thermal_d_i_m_0_l_i q om p m beta hq hom, conj_thermal_d_i_0_0_l_i q om p beta hq hom, conj_thermal_d_i_m_m_t_i_same_mass q om p m beta hq hom, conj_thermal_d_i_m_0_t_i q om p m beta hq hom, conj_thermal_d_i_0_0_t_i q om p beta hq hom, toC_complex, toC_real, ofR_complex, ofR_real, toC_ofR, toC_zero, toC_energy, toC_bose, map_mul, map_add, map_neg, map_sub, map_inv₀, map_div₀, Complex.conj_ofReal, hn, map_one]

theorem conj_ghost_thermal_zero_momentum_self_energy_thermal_part_landau_i (q : ℝ) (om : ℝ) (m : ℝ) (beta : ℝ) (hq : 0 < q) (hom : om ≠ 0) :
    (starRingEnd ℂ) (ghost.thermal.zero_momentum.self_energy_thermal_part_landau_i q om m beta) = ghost.thermal.zero_momentum.self_energy_thermal_part_landau_i q om m beta := by
  have hn : ∀ n : ℕ, [n.AtLeastTwo] → (starRingEnd ℂ) (OfNat.ofNat n : ℂ) = OfNat.ofNat n := fun n _ => map_ofNat _ n
  simp only [ghost.thermal.zero_momentum.self_energy_thermal_part_landau_i, conj_thermal_zero_momentum_i_m_m_i_same_mass q om m beta hq hom, conj_thermal_zero_momentum_i_m_0_i q om m beta hq hom, conj_thermal_zero_momentum_i_0_0_i q om beta hq hom, conj_thermal_zero_momentum_i_m_m_l_i_same_mass q om m beta hq hom, conj_thermal_zero_momentum_i_m_0_l_i q om m beta hq hom, conj_thermal_zero_momentum_i_0_0_l_i q om beta hq hom, conj_thermal_zero_momentum_i_m_m_t_i_same_mass q om m beta hq hom, conj_thermal_zero_momentum_i_m_0_t_i q om m beta hq hom, conj_thermal_zero_momentum_i_0_0_t_i q om beta hq hom, conj_thermal_zero_momentum_d_i_m_m_i_same_mass q om m beta hq hom, conj_thermal_zero_momentum_d_i_m_0_i q om m beta hq hom, conj_thermal_zero_momentum_d_i_0_0_i q om beta hq hom, conj_thermal_zero_momentum_d_i_m_m_l_i_same_mass q om m beta hq hom, conj_thermal_zero_momentum_d_i_m_0_l_i q om m beta hq hom, conj_thermal_zero_momentum_d_i_0_0_l_i q om beta hq hom, conj_thermal_zero_momentum_d_i_m_m_t_i_same_mass q om m beta hq hom, conj_thermal_zero_momentum_d_i_m_0_t_i q om m beta hq hom, conj_thermal_zero_momentum_d_i_0_0_t_i q om beta hq hom, toC_complex, toC_real, ofR_complex, ofR_real, toC_ofR, toC_zero, toC_energy, toC_bose, map_mul, map_add, map_neg, map_sub, map_inv₀, map_div₀, Complex.conj_ofReal, hn, map_one]

theorem conj_ghost_thermal_zero_matsubara_self_energy_thermal_part_landau_i (q : ℝ) (p : ℝ) (m : ℝ) (beta : ℝ) :
    (starRingEnd ℂ) (ghost.thermal.zero_matsubara.self_energy_thermal_part_landau_i q p m beta) = ghost.thermal.zero_matsubara.self_energy_thermal_part_landau_i q p m beta := by
  have hn : ∀ n : ℕ, [n.AtLeastTwo] → (starRingEnd ℂ) (OfNat.ofNat n : ℂ) = OfNat.ofNat n := fun n _ => map_ofNat _ n
  simp only [ghost.thermal.zero_matsubara.self_energy_thermal_part_landau_i, conj_thermal_zero_matsubara_i_m_0_i q p m beta, conj_thermal_zero_matsubara_i_m_0_l_i q p m beta, conj_thermal_zero_matsubara_i_m_0_t_i q p m beta, conj_thermal_zero_matsubara_d_i_m_0_t_i q p m beta, toC_complex, toC_real, ofR_complex, ofR_real, toC_ofR, toC_zero, toC_energy, toC_bose, map_mul, map_add, map_neg, map_sub, map_inv₀, map_div₀, Complex.conj_ofReal, hn, map_one]

theorem conj_gluon_thermal_polarization_glue_l_thermal_part_landau_i (q : ℝ) (om : ℝ) (p : ℝ) (m : ℝ) (beta : ℝ) (hq : 0 < q) (hom : om ≠ 0) :
    (starRingEnd ℂ) (gluon.thermal.polarization_glue_l_thermal_part_landau_i q om p m beta) = gluon.thermal.polarization_glue_l_thermal_part_landau_i q om p m beta := by
  have hn : ∀ n : ℕ, [n.AtLeastTwo] → (starRingEnd ℂ) (OfNat.ofNat n : ℂ) = OfNat.ofNat n := fun n _ => map_ofNat _ n
  simp only [gluon.thermal.polarization_glue_l_thermal_part_landau_i, conj_thermal_i_m_m_i_same_mass q om p m beta hq hom, conj_thermal_i_m_0_i q om p m beta hq hom, conj_thermal_i_0_0_i q om p beta hq hom, conj_thermal_i_m_m_l_i_same_mass q om p m beta hq hom, conj_thermal_i_m_0_l_i q om p m beta hq hom, conj_thermal_i_0_0_l_i q om p beta hq hom, conj_thermal_i_m_m_t_i_same_mass q om p m beta hq hom, conj_thermal_i_m_0_t_i q om p m beta hq hom, conj_thermal_i_0_0_t_i q om p beta hq hom, conj_thermal_d_i_m_m_i_same_mass q om p m beta hq hom, conj_thermal_d_i_m_0_i q om p m beta hq hom, conj_thermal_d_i_0_0_i q om p beta hq hom, conj_thermal_d_i_m_m_l_i_same_mass q om p m beta hq hom, conj_thermal_d_i_m_0_l_i q om p m beta hq hom, conj_thermal_d_i_0_0_l_i q om p beta hq hom, conj_thermal_d_i_m_m_t_i_same_mass q om p m beta hq hom, conj_thermal_d_i_m_0_t_i q om p m beta hq hom, conj_thermal_d_i_0_0_t_i q om p beta hq hom, toC_complex, toC_real, ofR_complex, ofR_real, toC_ofR, toC_zero, toC_energy, toC_bose, map_mul, map_add, map_neg, map_sub, map_inv₀, map_div₀, Complex.conj_ofReal, hn, map_one]

theorem conj_gluon_thermal_polarization_glue_t_thermal_part_landau_i (q : ℝ) (om : ℝ) (p : ℝ) (m : ℝ) (beta : ℝ) (hq : 0 < q) (hom : om ≠ 0) :
    (starRingEnd ℂ) (gluon.thermal.polarization_glue_t_thermal_part_landau_i q om p m beta) = gluon.thermal.polarization_glue_t_thermal_part_landau_i q om p m beta := by
  have hn : ∀ n : ℕ, [n.AtLeastTwo] → (starRingEnd ℂ) (OfNat.ofNat n : ℂ) = OfNat.ofNat n := fun n _ => map_ofNat _ n
  simp only [gluon.thermal.polarization_glue_t_thermal_part_landau_i, conj_thermal_i_m_m_i_same_mass q om p m beta hq hom, conj_thermal_i_m_0_i q om p m beta hq hom, conj_thermal_i_0_0_i q om p beta hq hom, conj_thermal_i_m_m_l_i_same_mass q om p m beta hq hom, conj_thermal_i_m_0_l_i q om p m beta hq hom, conj_thermal_i_0_0_l_i q om p beta hq hom, conj_thermal_i_m_m_t_i_same_mass q om p m beta hq hom, conj_thermal_i_m_0_t_i q om p m beta hq hom, conj_thermal_i_0_0_t_i q om p beta hq hom, conj_thermal_d_i_m_m_i_same_mass q om p m beta hq hom, conj_thermal_d_i_m_0_i q om p m beta hq hom, conj_thermal_d_i_0_0_i q om p beta hq hom, conj_thermal_d_i_m_m_l_i_same_mass q om p m beta hq hom, conj_thermal_d_i_m_0_l_i q om p m beta hq hom, conj_thermal_d_i_0_0_l_i q om p beta hq hom, conj_thermal_d_i_m_m_t_i_same_mass q om p m beta hq hom, conj_thermal_d_i_m_0_t_i q om p m beta hq hom, conj_thermal_d_i_0_0_t_i q om p beta hq hom, toC_complex, toC_real, ofR_complex, ofR_real, toC_ofR, toC_zero, toC_energy, toC_bose, map_mul, map_add, map_neg, map_sub, map_inv₀, map_div₀, Complex.conj_ofReal, hn, map_one]

theorem conj_gluon_thermal_polarization_quark_l_thermal_part_landau_i (k : Consts ℝ) (q : ℝ) (om : ℝ) (p : ℝ) (mq : ℝ) (beta : ℝ) (mu : ℝ) (hq : 0 < q) (hom : om ≠ 0) :
    (starRingEnd ℂ) (gluon.thermal.polarization_quark_l_thermal_part_landau_i k q om p mq beta mu) = gluon.thermal.polarization_quark_l_thermal_part_landau_i k q om p mq beta mu := by
  have hn : ∀ n : ℕ, [n.AtLeastTwo] → (starRingEnd ℂ) (OfNat.ofNat n : ℂ) = OfNat.ofNat n := fun n _ => map_ofNat _ n
  have t_mq : ∀ d : ℂ, d.im = 0 → (starRingEnd ℂ) (TL q om p (energy q (mq : ℂ)) d) = TL q (-(om : ℂ)) p (energy q (mq : ℂ)) d :=
    fun d hd => TL_conj (energy_im q mq) hd ((InStrip.ofReal hom (energy_pos (m := mq) hq)).R0 p (energy_re q mq) (energy_im q mq) hd)
  have u_mq : ∀ d : ℂ, d.im = 0 → (starRingEnd ℂ) (TL q (-(om : ℂ)) p (energy q (mq : ℂ)) d) = TL q om p (energy q (mq : ℂ)) d :=
    fun d hd => by rw [← t_mq d hd, Complex.conj_conj]
  have R0t_mq : ∀ d : ℂ, d.im = 0 → (starRingEnd ℂ) (R0 om p (energy q (mq : ℂ)) d) = R0 (-(om : ℂ)) p (energy q (mq : ℂ)) d :=
    fun d hd => R0_conj (energy_im q mq) hd
  have R0u_mq : ∀ d : ℂ, d.im = 0 → (starRingEnd ℂ) (R0 (-(om : ℂ)) p (energy q (mq : ℂ)) d) = R0 om p (energy q (mq : ℂ)) d :=
    fun d hd => by rw [← R0t_mq d hd, Complex.conj_conj]
  have PFt_mq : ∀ d : ℂ, d.im = 0 → (starRingEnd ℂ) (PF om p (energy q (mq : ℂ)) d) = PF (-(om : ℂ)) p (energy q (mq : ℂ)) d :=
    fun d hd => PF_conj (energy_im q mq) hd
  have PFu_mq : ∀ d : ℂ, d.im = 0 → (starRingEnd ℂ) (PF (-(om : ℂ)) p (energy q (mq : ℂ)) d) = PF om p (energy q (mq : ℂ)) d :=
    fun d hd => by rw [← PFt_mq d hd, Complex.conj_conj]
  have t_0 : ∀ d : ℂ, d.im = 0 → (starRingEnd ℂ) (TL q om p (q : ℂ) d) = TL q (-(om : ℂ)) p (q : ℂ) d :=
    fun d hd => TL_conj (Complex.ofReal_im q) hd ((InStrip.ofReal hom hq).R0 p (Complex.ofReal_re q) (Complex.ofReal_im q) hd)
  have u_0 : ∀ d : ℂ, d.im = 0 → (starRingEnd ℂ) (TL q (-(om : ℂ)) p (q : ℂ) d) = TL q om p (q : ℂ) d :=
    fun d hd => by rw [← t_0 d hd, Complex.conj_conj]
  have R0t_0 : ∀ d : ℂ, d.im = 0 → (starRingEnd ℂ) (R0 om p (q : ℂ) d) = R0 (-(om : ℂ)) p (q : ℂ) d :=
    fun d hd => R0_conj (Complex.ofReal_im q) hd
  have R0u_0 : ∀ d : ℂ, d.im = 0 → (starRingEnd ℂ) (R0 (-(om : ℂ)) p (q : ℂ) d) = R0 om p (q : ℂ) d :=
    fun d hd => by rw [← R0t_0 d hd, Complex.conj_conj]
  have PFt_0 : ∀ d : ℂ, d.im = 0 → (starRingEnd ℂ) (PF om p (q : ℂ) d) = PF (-(om : ℂ)) p (q : ℂ) d :=
    fun d hd => PF_conj (Complex.ofReal_im q) hd
  have PFu_0 : ∀ d : ℂ, d.im = 0 → (starRingEnd ℂ) (PF (-(om : ℂ)) p (q : ℂ) d) = PF om p (q : ℂ) d :=
    fun d hd => by rw [← PFt_0 d hd, Complex.conj_conj]
  rw [toC_gluon_thermal_polarization_quark_l_thermal_part_landau_i k q om p mq beta mu]
  simp only [gluon.thermal.polarization_quark_l_thermal_part_landau_i, r_0_eq, r_0_same_mass_eq, tlog_eq, tlog_same_mass_eq, tlog_zero_mass_eq, tlog_l_eq, tlog_l_same_mass_eq, tlog_l_zero_mass_eq, tlog_t_eq, tlog_t_same_mass_eq, tlog_t_zero_mass_eq, zm_r_0_eq, zm_r_0_same_mass_eq, z0_r_0_C, z0_r_0_eq, z0_tlog_eq, z0_tlog_t_eq, toC_complex, toC_real, ofR_complex, ofR_real, toC_ofR, toC_zero, toC_energy, toC_bose, map_mul, map_add, map_neg, map_sub, map_inv₀, map_div₀]
  try push_cast
  try simp only [z0_r_0_R, z0_tlog_same_mass_eq, z0_tlog_zero_mass_eq, z0_tlog_t_same_mass_eq, z0_tlog_t_zero_mass_eq, ofReal_energy, ofReal_bose]
  simp only [R0t_mq, R0u_mq, PFt_mq, PFu_mq, t_mq, u_mq, R0t_0, R0u_0, PFt_0, PFu_0, t_0, u_0, hn, ZL_conj, bose_energy_conj, bose_conj, energy_conj, Complex.conj_ofReal, Complex.conj_I, map_mul, map_add, map_neg, map_sub, map_inv₀, map_div₀, Complex.sub_im, Complex.mul_im, Complex.neg_im, Complex.ofReal_im, Complex.zero_im, mul_zero, zero_mul, add_zero, sub_zero, neg_zero, map_one, map_zero, map_natCast]
  try simp only [mul_inv, inv_neg]
  try ring

theorem conj_gluon_thermal_polarization_quark_t_thermal_part_landau_i (k : Consts ℝ) (q : ℝ) (om : ℝ) (p : ℝ) (mq : ℝ) (beta : ℝ) (mu : ℝ) (hq : 0 < q) (hom : om ≠ 0) :
    (starRingEnd ℂ) (gluon.thermal.polarization_quark_t_thermal_part_landau_i k q om p mq beta mu) = gluon.thermal.polarization_quark_t_thermal_part_landau_i k q om p mq beta mu := by
  have hn : ∀ n : ℕ, [n.AtLeastTwo] → (starRingEnd ℂ) (OfNat.ofNat n : ℂ) = OfNat.ofNat n := fun n _ => map_ofNat _ n
  have t_mq : ∀ d : ℂ, d.im = 0 → (starRingEnd ℂ) (TL q om p (energy q (mq : ℂ)) d) = TL q (-(om : ℂ)) p (energy q (mq : ℂ)) d :=
    fun d hd => TL_conj (energy_im q mq) hd ((InStrip.ofReal hom (energy_pos (m := mq) hq)).R0 p (energy_re q mq) (energy_im q mq) hd)
  have u_mq : ∀ d : ℂ, d.im = 0 → (starRingEnd ℂ) (TL q (-(om : ℂ)) p (energy q (mq : ℂ)) d) = TL q om p (energy q (mq : ℂ)) d :=
    fun d hd => by rw [← t_mq d hd, Complex.conj_conj]
  have R0t_mq : ∀ d : ℂ, d.im = 0 → (starRingEnd ℂ) (R0 om p (energy q (mq : ℂ)) d) = R0 (-(om : ℂ)) p (energy q (mq : ℂ)) d :=
    fun d hd => R0_conj (energy_im q mq) hd
  have R0u_mq : ∀ d : ℂ, d.im = 0 → (starRingEnd ℂ) (R0 (-(om : ℂ)) p (energy q (mq : ℂ)) d) = R0 om p (energy q (mq : ℂ)) d :=
    fun d hd => by rw [← R0t_mq d hd, Complex.conj_conj]
  have PFt_mq : ∀ d : ℂ, d.im = 0 → (starRingEnd ℂ) (PF om p (energy q (mq : ℂ)) d) = PF (-(om : ℂ)) p (energy q (mq : ℂ)) d :=
    fun d hd => PF_conj (energy_im q mq) hd
  have PFu_mq : ∀ d : ℂ, d.im = 0 → (starRingEnd ℂ) (PF (-(om : ℂ)) p (energy q (mq : ℂ)) d) = PF om p (energy q (mq : ℂ)) d :=
    fun d hd => by rw [← PFt_mq d hd, Complex.conj_conj]
  have t_0 : ∀ d : ℂ, d.im = 0 → (starRingEnd ℂ) (TL q om p (q : ℂ) d) = TL q (-(om : ℂ)) p (q : ℂ) d :=
    fun d hd => TL_conj (Complex.ofReal_im q) hd ((InStrip.ofReal hom hq).R0 p (Complex.ofReal_re q) (Complex.ofReal_im q) hd)
  have u_0 : ∀ d : ℂ, d.im = 0 → (starRingEnd ℂ) (TL q (-(om : ℂ)) p (q : ℂ) d) = TL q om p (q : ℂ) d :=
    fun d hd => by rw [← t_0 d hd, Complex.conj_conj]
  have R0t_0 : ∀ d : ℂ, d.im = 0 → (starRingEnd ℂ) (R0 om p (q : ℂ) d) = R0 (-(om : ℂ)) p (q : ℂ) d :=
    fun d hd => R0_conj (Complex.ofReal_im q) hd
  have R0u_0 : ∀ d : ℂ, d.im = 0 → (starRingEnd ℂ) (R0 (-(om : ℂ)) p (q : ℂ) d) = R0 om p (q : ℂ) d :=
    fun d hd => by rw [← R0t_0 d hd, Complex.conj_conj]
  have PFt_0 : ∀ d : ℂ, d.im = 0 → (starRingEnd ℂ) (PF om p (q : ℂ) d) = PF (-(om : ℂ)) p (q : ℂ) d :=
    fun d hd => PF_conj (Complex.ofReal_im q) hd
  have PFu_0 : ∀ d : ℂ, d.im = 0 → (starRingEnd ℂ) (PF (-(om : ℂ)) p (q : ℂ) d) = PF om p (q : ℂ) d :=
    fun d hd => by rw [← PFt_0 d hd, Complex.conj_conj]
  rw [toC_gluon_thermal_polarization_quark_t_thermal_part_landau_i k q om p mq beta mu]
  simp only [gluon.thermal.polarization_quark_t_thermal_part_landau_i, r_0_eq, r_0_same_mass_eq, tlog_eq, tlog_same_mass_eq, tlog_zero_mass_eq, tlog_l_eq, tlog_l_same_mass_eq, tlog_l_zero_mass_eq, tlog_t_eq, tlog_t_same_mass_eq, tlog_t_zero_mass_eq, zm_r_0_eq, zm_r_0_same_mass_eq, z0_r_0_C, z0_r_0_eq, z0_tlog_eq, z0_tlog_t_eq, toC_complex, toC_real, ofR_complex, ofR_real, toC_ofR, toC_zero, toC_energy, toC_bose, map_mul, map_add, map_neg, map_sub, map_inv₀, map_div₀]
  try push_cast
  try simp only [z0_r_0_R, z0_tlog_same_mass_eq, z0_tlog_zero_mass_eq, z0_tlog_t_same_mass_eq, z0_tlog_t_zero_mass_eq, ofReal_energy, ofReal_bose]
  simp only [R0t_mq, R0u_mq, PFt_mq, PFu_mq, t_mq, u_mq, R0t_0, R0u_0, PFt_0, PFu_0, t_0, u_0, hn, ZL_conj, bose_energy_conj, bose_conj, energy_conj, Complex.conj_ofReal, Complex.conj_I, map_mul, map_add, map_neg, map_sub, map_inv₀, map_div₀, Complex.sub_im, Complex.mul_im, Complex.neg_im, Complex.ofReal_im, Complex.zero_im, mul_zero, zero_mul, add_zero, sub_zero, neg_zero, map_one, map_zero, map_natCast]
  try simp only [mul_inv, inv_neg]
  try ring

theorem conj_gluon_thermal_polarization_quark_l_thermal_part_zero_temp_landau_i (k : Consts ℝ) (q : ℝ) (om : ℝ) (p : ℝ) (mq : ℝ) (mu : ℝ) (hq : 0 < q) (hom : om ≠ 0) :
    (starRingEnd ℂ) (gluon.thermal.polarization_quark_l_thermal_part_zero_temp_landau_i k q om p mq mu) = gluon.thermal.polarization_quark_l_thermal_part_zero_temp_landau_i k q om p mq mu := by
  have hn : ∀ n : ℕ, [n.AtLeastTwo] → (starRingEnd ℂ) (OfNat.ofNat n : ℂ) = OfNat.ofNat n := fun n _ => map_ofNat _ n
  have t_mq : ∀ d : ℂ, d.im = 0 → (starRingEnd ℂ) (TL q om p (energy q (mq : ℂ)) d) = TL q (-(om : ℂ)) p (energy q (mq : ℂ)) d :=
    fun d hd => TL_conj (energy_im q mq) hd ((InStrip.ofReal hom (energy_pos (m := mq) hq)).R0 p (energy_re q mq) (energy_im q mq) hd)
  have u_mq : ∀ d : ℂ, d.im = 0 → (starRingEnd ℂ) (TL q (-(om : ℂ)) p (energy q (mq : ℂ)) d) = TL q om p (energy q (mq : ℂ)) d :=
    fun d hd => by rw [← t_mq d hd, Complex.conj_conj]
  have R0t_mq : ∀ d : ℂ, d.im = 0 → (starRingEnd ℂ) (R0 om p (energy q (mq : ℂ)) d) = R0 (-(om : ℂ)) p (energy q (mq : ℂ)) d :=
    fun d hd => R0_conj (energy_im q mq) hd
  have R0u_mq : ∀ d : ℂ, d.im = 0 → (starRingEnd ℂ) (R0 (-(om : ℂ)) p (energy q (mq : ℂ)) d) = R0 om p (energy q (mq : ℂ)) d :=
    fun d hd => by rw [← R0t_mq d hd, Complex.conj_conj]
  have PFt_mq : ∀ d : ℂ, d.im = 0 → (starRingEnd ℂ) (PF om p (energy q (mq : ℂ)) d) = PF (-(om : ℂ)) p (energy q (mq : ℂ)) d :=
    fun d hd => PF_conj (energy_im q mq) hd
  have PFu_mq : ∀ d : ℂ, d.im = 0 → (starRingEnd ℂ) (PF (-(om : ℂ)) p (energy q (mq : ℂ)) d) = PF om p (energy q (mq : ℂ)) d :=
    fun d hd => by rw [← PFt_mq d hd, Complex.conj_conj]
  have t_0 : ∀ d : ℂ, d.im = 0 → (starRingEnd ℂ) (TL q om p (q : ℂ) d) = TL q (-(om : ℂ)) p (q : ℂ) d :=
    fun d hd => TL_conj (Complex.ofReal_im q) hd ((InStrip.ofReal hom hq).R0 p (Complex.ofReal_re q) (Complex.ofReal_im q) hd)
  have u_0 : ∀ d : ℂ, d.im = 0 → (starRingEnd ℂ) (TL q (-(om : ℂ)) p (q : ℂ) d) = TL q om p (q : ℂ) d :=
    fun d hd => by rw [← t_0 d hd, Complex.conj_conj]
  have R0t_0 : ∀ d : ℂ, d.im = 0 → (starRingEnd ℂ) (R0 om p (q : ℂ) d) = R0 (-(om : ℂ)) p (q : ℂ) d :=
    fun d hd => R0_conj (Complex.ofReal_im q) hd
  have R0u_0 : ∀ d : ℂ, d.im = 0 → (starRingEnd ℂ) (R0 (-(om : ℂ)) p (q : ℂ) d) = R0 om p (q : ℂ) d :=
    fun d hd => by rw [← R0t_0 d hd, Complex.conj_conj]
  have PFt_0 : ∀ d : ℂ, d.im = 0 → (starRingEnd ℂ) (PF om p (q : ℂ) d) = PF (-(om : ℂ)) p (q : ℂ) d :=
    fun d hd => PF_conj (Complex.ofReal_im q) hd
  have PFu_0 : ∀ d : ℂ, d.im = 0 → (starRingEnd ℂ) (PF (-(om : ℂ)) p (q : ℂ) d) = PF om p (q : ℂ) d :=
    fun d hd => by rw [← PFt_0 d hd, Complex.conj_conj]
  rw [toC_gluon_thermal_polarization_quark_l_thermal_part_zero_temp_landau_i k q om p mq mu]
  simp only [gluon.thermal.polarization_quark_l_thermal_part_zero_temp_landau_i, r_0_eq, r_0_same_mass_eq, tlog_eq, tlog_same_mass_eq, tlog_zero_mass_eq, tlog_l_eq, tlog_l_same_mass_eq, tlog_l_zero_mass_eq, tlog_t_eq, tlog_t_same_mass_eq, tlog_t_zero_mass_eq, zm_r_0_eq, zm_r_0_same_mass_eq, z0_r_0_C, z0_r_0_eq, z0_tlog_eq, z0_tlog_t_eq, toC_complex, toC_real, ofR_complex, ofR_real, toC_ofR, toC_zero, toC_energy, toC_bose, map_mul, map_add, map_neg, map_sub, map_inv₀, map_div₀]
  try push_cast
  try simp only [z0_r_0_R, z0_tlog_same_mass_eq, z0_tlog_zero_mass_eq, z0_tlog_t_same_mass_eq, z0_tlog_t_zero_mass_eq, ofReal_energy, ofReal_bose]
  simp only [R0t_mq, R0u_mq, PFt_mq, PFu_mq, t_mq, u_mq, R0t_0, R0u_0, PFt_0, PFu_0, t_0, u_0, hn, ZL_conj, bose_energy_conj, bose_conj, energy_conj, Complex.conj_ofReal, Complex.conj_I, map_mul, map_add, map_neg, map_sub, map_inv₀, map_div₀, Complex.sub_im, Complex.mul_im, Complex.neg_im, Complex.ofReal_im, Complex.zero_im, mul_zero, zero_mul, add_zero, sub_zero, neg_zero, map_one, map_zero, map_natCast]
  try simp only [mul_inv, inv_neg]
  try ring

theorem conj_gluon_thermal_polarization_quark_t_thermal_part_zero_temp_landau_i (k : Consts ℝ) (q : ℝ) (om : ℝ) (p : ℝ) (mq : ℝ) (mu : ℝ) (hq : 0 < q) (hom : om ≠ 0) :
    (starRingEnd ℂ) (gluon.thermal.polarization_quark_t_thermal_part_zero_temp_landau_i k q om p mq mu) = gluon.thermal.polarization_quark_t_thermal_part_zero_temp_landau_i k q om p mq mu := by
  have hn : ∀ n : ℕ, [n.AtLeastTwo] → (starRingEnd ℂ) (OfNat.ofNat n : ℂ) = OfNat.ofNat n := fun n _ => map_ofNat _ n
  have t_mq : ∀ d : ℂ, d.im = 0 → (starRingEnd ℂ) (TL q om p (energy q (mq : ℂ)) d) = TL q (-(om : ℂ)) p (energy q (mq : ℂ)) d :=
    fun d hd => TL_conj (energy_im q mq) hd ((InStrip.ofReal hom (energy_pos (m := mq) hq)).R0 p (energy_re q mq) (energy_im q mq) hd)
  have u_mq : ∀ d : ℂ, d.im = 0 → (starRingEnd ℂ) (TL q (-(om : ℂ)) p (energy q (mq : ℂ)) d) = TL q om p (energy q (mq : ℂ)) d :=
    fun d hd => by rw [← t_mq d hd, Complex.conj_conj]
  have R0t_mq : ∀ d : ℂ, d.im = 0 → (starRingEnd ℂ) (R0 om p (energy q (mq : ℂ)) d) = R0 (-(om : ℂ)) p (energy q (mq : ℂ)) d :=
    fun d hd => R0_conj (energy_im q mq) hd
  have R0u_mq : ∀ d : ℂ, d.im = 0 → (starRingEnd ℂ) (R0 (-(om : ℂ)) p (energy q (mq : ℂ)) d) = R0 om p (energy q (mq : ℂ)) d :=
    fun d hd => by rw [← R0t_mq d hd, Complex.conj_conj]
  have PFt_mq : ∀ d : ℂ, d.im = 0 → (starRingEnd ℂ) (PF om p (energy q (mq : ℂ)) d) = PF (-(om : ℂ)) p (energy q (mq : ℂ)) d :=
    fun d hd => PF_conj (energy_im q mq) hd
  have PFu_mq : ∀ d : ℂ, d.im = 0 → (starRingEnd ℂ) (PF (-(om : ℂ)) p (energy q (mq : ℂ)) d) = PF om p (energy q (mq : ℂ)) d :=
    fun d hd => by rw [← PFt_mq d hd, Complex.conj_conj]
  have t_0 : ∀ d : ℂ, d.im = 0 → (starRingEnd ℂ) (TL q om p (q : ℂ) d) = TL q (-(om : ℂ)) p (q : ℂ) d :=
    fun d hd => TL_conj (Complex.ofReal_im q) hd ((InStrip.ofReal hom hq).R0 p (Complex.ofReal_re q) (Complex.ofReal_im q) hd)
  have u_0 : ∀ d : ℂ, d.im = 0 → (starRingEnd ℂ) (TL q (-(om : ℂ)) p (q : ℂ) d) = TL q om p (q : ℂ) d :=
    fun d hd => by rw [← t_0 d hd, Complex.conj_conj]
  have R0t_0 : ∀ d : ℂ, d.im = 0 → (starRingEnd ℂ) (R0 om p (q : ℂ) d) = R0 (-(om : ℂ)) p (q : ℂ) d :=
    fun d hd => R0_conj (Complex.ofReal_im q) hd
  have R0u_0 : ∀ d : ℂ, d.im = 0 → (starRingEnd ℂ) (R0 (-(om : ℂ)) p (q : ℂ) d) = R0 om p (q : ℂ) d :=
    fun d hd => by rw [← R0t_0 d hd, Complex.conj_conj]
  have PFt_0 : ∀ d : ℂ, d.im = 0 → (starRingEnd ℂ) (PF om p (q : ℂ) d) = PF (-(om : ℂ)) p (q : ℂ) d :=
    fun d hd => PF_conj (Complex.ofReal_im q) hd
  have PFu_0 : ∀ d : ℂ, d.im = 0 → (starRingEnd ℂ) (PF (-(om : ℂ)) p (q : ℂ) d) = PF om p (q : ℂ) d :=
    fun d hd => by rw [← PFt_0 d hd, Complex.conj_conj]
  rw [toC_gluon_thermal_polarization_quark_t_thermal_part_zero_temp_landau_i k q om p mq mu]
  simp only [gluon.thermal.polarization_quark_t_thermal_part_zero_temp_landau_i, r_0_eq, r_0_same_mass_eq, tlog_eq, tlog_same_mass_eq, tlog_zero_mass_eq, tlog_l_eq, tlog_l_same_mass_eq, tlog_l_zero_mass_eq, tlog_t_eq, tlog_t_same_mass_eq, tlog_t_zero_mass_eq, zm_r_0_eq, zm_r_0_same_mass_eq, z0_r_0_C, z0_r_0_eq, z0_tlog_eq, z0_tlog_t_eq, toC_complex, toC_real, ofR_complex, ofR_real, toC_ofR, toC_zero, toC_energy, toC_bose, map_mul, map_add, map_neg, map_sub, map_inv₀, map_div₀]
  try push_cast
  try simp only [z0_r_0_R, z0_tlog_same_mass_eq, z0_tlog_zero_mass_eq, z0_tlog_t_same_mass_eq, z0_tlog_t_zero_mass_eq, ofReal_energy, ofReal_bose]
  simp only [R0t_mq, R0u_mq, PFt_mq, PFu_mq, t_mq, u_mq, R0t_0, R0u_0, PFt_0, PFu_0, t_0, u_0, hn, ZL_conj, bose_energy_conj, bose_conj, energy_conj, Complex.conj_ofReal, Complex.conj_I, map_mul, map_add, map_neg, map_sub, map_inv₀, map_div₀, Complex.sub_im, Complex.mul_im, Complex.neg_im, Complex.ofReal_im, Complex.zero_im, mul_zero, zero_mul, add_zero, sub_zero, neg_zero, map_one, map_zero, map_natCast]
  try simp only [mul_inv, inv_neg]
  try ring

theorem conj_gluon_thermal_zero_matsubara_polarization_glue_l_thermal_part_landau_i (q : ℝ) (p : ℝ) (m : ℝ) (beta : ℝ) :
    (starRingEnd ℂ) (gluon.thermal.zero_matsubara.polarization_glue_l_thermal_part_landau_i q p m beta) = gluon.thermal.zero_matsubara.polarization_glue_l_thermal_part_landau_i q p m beta := by
  have hn : ∀ n : ℕ, [n.AtLeastTwo] → (starRingEnd ℂ) (OfNat.ofNat n : ℂ) = OfNat.ofNat n := fun n _ => map_ofNat _ n
  simp only [gluon.thermal.zero_matsubara.polarization_glue_l_thermal_part_landau_i, conj_thermal_zero_matsubara_i_m_0_i q p m beta, conj_thermal_zero_matsubara_i_m_0_l_i q p m beta, conj_thermal_zero_matsubara_i_m_0_t_i q p m beta, conj_thermal_zero_matsubara_d_i_m_0_t_i q p m beta, toC_complex, toC_real, ofR_complex, ofR_real, toC_ofR, toC_zero, toC_energy, toC_bose, map_mul, map_add, map_neg, map_sub, map_inv₀, map_div₀, Complex.conj_ofReal, hn, map_one]

theorem conj_gluon_thermal_zero_matsubara_polarization_glue_t_thermal_part_landau_i (q : ℝ) (p : ℝ) (m : ℝ) (beta : ℝ) :
    (starRingEnd ℂ) (gluon.thermal.zero_matsubara.polarization_glue_t_thermal_part_landau_i q p m beta) = gluon.thermal.zero_matsubara.polarization_glue_t_thermal_part_landau_i q p m beta := by
  have hn : ∀ n : ℕ, [n.AtLeastTwo] → (starRingEnd ℂ) (OfNat.ofNat n : ℂ) = OfNat.ofNat n := fun n _ => map_ofNat _ n
  simp only [gluon.thermal.zero_matsubara.polarization_glue_t_thermal_part_landau_i, conj_thermal_zero_matsubara_i_m_0_i q p m beta, conj_thermal_zero_matsubara_i_m_0_l_i q p m beta, conj_thermal_zero_matsubara_i_m_0_t_i q p m beta, conj_thermal_zero_matsubara_d_i_m_0_t_i q p m beta, toC_complex, toC_real, ofR_complex, ofR_real, toC_ofR, toC_zero, toC_energy, toC_bose, map_mul, map_add, map_neg, map_sub, map_inv₀, map_div₀, Complex.conj_ofReal, hn, map_one]

theorem conj_gluon_thermal_zero_momentum_polarization_glue_l_thermal_part_landau_i (q : ℝ) (om : ℝ) (m : ℝ) (beta : ℝ) (hq : 0 < q) (hom : om ≠ 0) :
    (starRingEnd ℂ) (gluon.thermal.zero_momentum.polarization_glue_l_thermal_part_landau_i q om m beta) = gluon.thermal.zero_momentum.polarization_glue_l_thermal_part_landau_i q om m beta := by
  have hn : ∀ n : ℕ, [n.AtLeastTwo] → (starRingEnd ℂ) (OfNat.ofNat n : ℂ) = OfNat.ofNat n := fun n _ => map_ofNat _ n
  simp only [gluon.thermal.zero_momentum.polarization_glue_l_thermal_part_landau_i, conj_thermal_zero_momentum_i_m_m_i_same_mass q om m beta hq hom, conj_thermal_zero_momentum_i_m_0_i q om m beta hq hom, conj_thermal_zero_momentum_i_0_0_i q om beta hq hom, conj_thermal_zero_momentum_i_m_m_l_i_same_mass q om m beta hq hom, conj_thermal_zero_momentum_i_m_0_l_i q om m beta hq hom, conj_thermal_zero_momentum_i_0_0_l_i q om beta hq hom, conj_thermal_zero_momentum_i_m_m_t_i_same_mass q om m beta hq hom, conj_thermal_zero_momentum_i_m_0_t_i q om m beta hq hom, conj_thermal_zero_momentum_i_0_0_t_i q om beta hq hom, conj_thermal_zero_momentum_d_i_m_m_i_same_mass q om m beta hq hom, conj_thermal_zero_momentum_d_i_m_0_i q om m beta hq hom, conj_thermal_zero_momentum_d_i_0_0_i q om beta hq hom, conj_thermal_zero_momentum_d_i_m_m_l_i_same_mass q om m beta hq hom, conj_thermal_zero_momentum_d_i_m_0_l_i q om m beta hq hom, conj_thermal_zero_momentum_d_i_0_0_l_i q om beta hq hom, conj_thermal_zero_momentum_d_i_m_m_t_i_same_mass q om m beta hq hom, conj_thermal_zero_momentum_d_i_m_0_t_i q om m beta hq hom, conj_thermal_zero_momentum_d_i_0_0_t_i q om beta hq hom, toC_complex, toC_real, ofR_complex, ofR_real, toC_ofR, toC_zero, toC_energy, toC_bose, map_mul, map_add, map_neg, map_sub, map_inv₀, map_div₀, Complex.conj_ofReal, hn, map_one]

theorem conj_gluon_thermal_zero_momentum_polarization_glue_t_thermal_part_landau_i (q : ℝ) (om : ℝ) (m : ℝ) (beta : ℝ) (hq : 0 < q) (hom : om ≠ 0) :
    (starRingEnd ℂ) (gluon.thermal.zero_momentum.polarization_glue_t_thermal_part_landau_i q om m beta) = gluon.thermal.zero_momentum.polarization_glue_t_thermal_part_landau_i q om m beta := by
  have hn : ∀ n : ℕ, [n.AtLeastTwo] → (starRingEnd ℂ) (OfNat.ofNat n : ℂ) = OfNat.ofNat n := fun n _ => map_ofNat _ n
  simp only [gluon.thermal.zero_momentum.polarization_glue_t_thermal_part_landau_i, gluon.thermal.zero_momentum.polarization_glue_l_thermal_part_landau_i, conj_thermal_zero_momentum_i_m_m_i_same_mass q om m beta hq hom, conj_thermal_zero_momentum_i_m_0_i q om m beta hq hom, conj_thermal_zero_momentum_i_0_0_i q om beta hq hom, conj_thermal_zero_momentum_i_m_m_l_i_same_mass q om m beta hq hom, conj_thermal_zero_momentum_i_m_0_l_i q om m beta hq hom, conj_thermal_zero_momentum_i_0_0_l_i q om beta hq hom, conj_thermal_zero_momentum_i_m_m_t_i_same_mass q om m beta hq hom, conj_thermal_zero_momentum_i_m_0_t_i q om m beta hq hom, conj_thermal_zero_momentum_i_0_0_t_i q om beta hq hom, conj_thermal_zero_momentum_d_i_m_m_i_same_mass q om m beta hq hom, conj_thermal_zero_momentum_d_i_m_0_i q om m beta hq hom, conj_thermal_zero_momentum_d_i_0_0_i q om beta hq hom, conj_thermal_zero_momentum_d_i_m_m_l_i_same_mass q om m beta hq hom, conj_thermal_zero_momentum_d_i_m_0_l_i q om m beta hq hom, conj_thermal_zero_momentum_d_i_0_0_l_i q om beta hq hom, conj_thermal_zero_momentum_d_i_m_m_t_i_same_mass q om m beta hq hom, conj_thermal_zero_momentum_d_i_m_0_t_i q om m beta hq hom, conj_thermal_zero_momentum_d_i_0_0_t_i q om beta hq hom, toC_complex, toC_real, ofR_complex, ofR_real, toC_ofR, toC_zero, toC_energy, toC_bose, map_mul, map_add, map_neg, map_sub, map_inv₀, map_div₀, Complex.conj_ofReal, hn, map_one]

end Qcd
