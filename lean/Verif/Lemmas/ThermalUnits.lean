import Verif.Lemmas.ThermalScale

/-! # Unit independence of the thermal integrands: one lemma per function

Generated by a script. -/

set_option linter.unusedSimpArgs false
set_option linter.unusedTactic false
set_option linter.unreachableTactic false
set_option linter.unusedVariables false

namespace Qcd
open thermal consts

variable {T T1 T2 T3 T4 : Type} [Num T] [Num T1] [Num T2] [Num T3] [Num T4]

theorem scale_thermal_j_m_i {L : ℝ} (hL : 0 < L) (q : ℝ) (m : T) (beta : ℝ) :
    thermal.j_m_i (L * q) (ofR L * m) (beta / L) = (ofR L : T) ^ (1 : ℤ) * thermal.j_m_i q m beta := by
  have hL0 : (L : ℂ) ≠ 0 := Complex.ofReal_ne_zero.2 hL.ne'
  apply toC_injective
  simp only [map_mul, map_zpow₀, toC_ofR]
  refine (toC_thermal_j_m_i (L * q) (ofR L * m) (beta / L)).trans (Eq.trans ?_ (congrArg ((L : ℂ) ^ (1 : ℤ) * ·) (toC_thermal_j_m_i q m beta).symm))
  simp only [thermal.j_m_i, r_0_eq, r_0_same_mass_eq, tlog_eq, tlog_same_mass_eq, tlog_zero_mass_eq, tlog_l_eq, tlog_l_same_mass_eq, tlog_l_zero_mass_eq, tlog_t_eq, tlog_t_same_mass_eq, tlog_t_zero_mass_eq, zm_r_0_eq, zm_r_0_same_mass_eq, z0_r_0_C, z0_r_0_eq, z0_tlog_eq, z0_tlog_t_eq, toC_complex, toC_real, ofR_complex, ofR_real, toC_ofR, toC_zero, toC_energy, toC_bose, map_mul, map_add, map_neg, map_sub, map_inv₀, map_div₀, map_zpow₀, energy_scale_real hL, fermi_double_scale hL, fermi_double_zero_temp_scale hL]
  try push_cast
  try simp only [z0_r_0_R, z0_tlog_same_mass_eq, z0_tlog_zero_mass_eq, z0_tlog_t_same_mass_eq, z0_tlog_t_zero_mass_eq, ofReal_energy, ofReal_bose, Complex.ofReal_mul, Complex.ofReal_neg]
  have hm : ∀ a b : ℂ, (L : ℂ) * a * (L * b) = L * L * (a * b) := fun a b => by ring
  have hs : ∀ a b : ℂ, (L : ℂ) * L * a - L * L * b = L * L * (a - b) := fun a b => by ring
  try simp only [energy_scale hL, bose_scale hL, hm, hs, ← mul_neg, neg_neg]
  try simp only [energy_scale hL, bose_scale hL, hm, hs, TL_scale hL0, TL_scale_zero hL0, R0_scale, R0_scale_zero, R0_scale_pz, R0_scale_pz_zero, PF_scale hL0, PF_scale_zero hL0, ZL_scale hL0, ZL_scale_zero hL0]
  field_simp
  try ring

theorem scale_thermal_j_0_i {L : ℝ} (hL : 0 < L) (q : ℝ) (beta : ℝ) :
    thermal.j_0_i (L * q) (beta / L) = L ^ (1 : ℤ) * thermal.j_0_i q beta := by
  have hL0 : (L : ℂ) ≠ 0 := Complex.ofReal_ne_zero.2 hL.ne'
  apply Complex.ofReal_injective
  simp only [thermal.j_0_i, r_0_eq, r_0_same_mass_eq, tlog_eq, tlog_same_mass_eq, tlog_zero_mass_eq, tlog_l_eq, tlog_l_same_mass_eq, tlog_l_zero_mass_eq, tlog_t_eq, tlog_t_same_mass_eq, tlog_t_zero_mass_eq, zm_r_0_eq, zm_r_0_same_mass_eq, z0_r_0_C, z0_r_0_eq, z0_tlog_eq, z0_tlog_t_eq, toC_complex, toC_real, ofR_complex, ofR_real, toC_ofR, toC_zero, toC_energy, toC_bose, map_mul, map_add, map_neg, map_sub, map_inv₀, map_div₀, map_zpow₀, energy_scale_real hL, fermi_double_scale hL, fermi_double_zero_temp_scale hL]
  try push_cast
  try simp only [z0_r_0_R, z0_tlog_same_mass_eq, z0_tlog_zero_mass_eq, z0_tlog_t_same_mass_eq, z0_tlog_t_zero_mass_eq, ofReal_energy, ofReal_bose, Complex.ofReal_mul, Complex.ofReal_neg]
  have hm : ∀ a b : ℂ, (L : ℂ) * a * (L * b) = L * L * (a * b) := fun a b => by ring
  have hs : ∀ a b : ℂ, (L : ℂ) * L * a - L * L * b = L * L * (a - b) := fun a b => by ring
  try simp only [energy_scale hL, bose_scale hL, hm, hs, ← mul_neg, neg_neg]
  try simp only [energy_scale hL, bose_scale hL, hm, hs, TL_scale hL0, TL_scale_zero hL0, R0_scale, R0_scale_zero, R0_scale_pz, R0_scale_pz_zero, PF_scale hL0, PF_scale_zero hL0, ZL_scale hL0, ZL_scale_zero hL0]
  field_simp
  try ring

theorem scale_thermal_j_m_l_i {L : ℝ} (hL : 0 < L) (q : ℝ) (m : T) (beta : ℝ) :
    thermal.j_m_l_i (L * q) (ofR L * m) (beta / L) = (ofR L : T) ^ (3 : ℤ) * thermal.j_m_l_i q m beta := by
  have hL0 : (L : ℂ) ≠ 0 := Complex.ofReal_ne_zero.2 hL.ne'
  apply toC_injective
  simp only [map_mul, map_zpow₀, toC_ofR]
  refine (toC_thermal_j_m_l_i (L * q) (ofR L * m) (beta / L)).trans (Eq.trans ?_ (congrArg ((L : ℂ) ^ (3 : ℤ) * ·) (toC_thermal_j_m_l_i q m beta).symm))
  simp only [thermal.j_m_l_i, r_0_eq, r_0_same_mass_eq, tlog_eq, tlog_same_mass_eq, tlog_zero_mass_eq, tlog_l_eq, tlog_l_same_mass_eq, tlog_l_zero_mass_eq, tlog_t_eq, tlog_t_same_mass_eq, tlog_t_zero_mass_eq, zm_r_0_eq, zm_r_0_same_mass_eq, z0_r_0_C, z0_r_0_eq, z0_tlog_eq, z0_tlog_t_eq, toC_complex, toC_real, ofR_complex, ofR_real, toC_ofR, toC_zero, toC_energy, toC_bose, map_mul, map_add, map_neg, map_sub, map_inv₀, map_div₀, map_zpow₀, energy_scale_real hL, fermi_double_scale hL, fermi_double_zero_temp_scale hL]
  try push_cast
  try simp only [z0_r_0_R, z0_tlog_same_mass_eq, z0_tlog_zero_mass_eq, z0_tlog_t_same_mass_eq, z0_tlog_t_zero_mass_eq, ofReal_energy, ofReal_bose, Complex.ofReal_mul, Complex.ofReal_neg]
  have hm : ∀ a b : ℂ, (L : ℂ) * a * (L * b) = L * L * (a * b) := fun a b => by ring
  have hs : ∀ a b : ℂ, (L : ℂ) * L * a - L * L * b = L * L * (a - b) := fun a b => by ring
  try simp only [energy_scale hL, bose_scale hL, hm, hs, ← mul_neg, neg_neg]
  try simp only [energy_scale hL, bose_scale hL, hm, hs, TL_scale hL0, TL_scale_zero hL0, R0_scale, R0_scale_zero, R0_scale_pz, R0_scale_pz_zero, PF_scale hL0, PF_scale_zero hL0, ZL_scale hL0, ZL_scale_zero hL0]
  field_simp
  try ring

theorem scale_thermal_j_0_l_i {L : ℝ} (hL : 0 < L) (q : ℝ) (beta : ℝ) :
    thermal.j_0_l_i (L * q) (beta / L) = L ^ (3 : ℤ) * thermal.j_0_l_i q beta := by
  have hL0 : (L : ℂ) ≠ 0 := Complex.ofReal_ne_zero.2 hL.ne'
  apply Complex.ofReal_injective
  simp only [thermal.j_0_l_i, r_0_eq, r_0_same_mass_eq, tlog_eq, tlog_same_mass_eq, tlog_zero_mass_eq, tlog_l_eq, tlog_l_same_mass_eq, tlog_l_zero_mass_eq, tlog_t_eq, tlog_t_same_mass_eq, tlog_t_zero_mass_eq, zm_r_0_eq, zm_r_0_same_mass_eq, z0_r_0_C, z0_r_0_eq, z0_tlog_eq, z0_tlog_t_eq, toC_complex, toC_real, ofR_complex, ofR_real, toC_ofR, toC_zero, toC_energy, toC_bose, map_mul, map_add, map_neg, map_sub, map_inv₀, map_div₀, map_zpow₀, energy_scale_real hL, fermi_double_scale hL, fermi_double_zero_temp_scale hL]
  try push_cast
  try simp only [z0_r_0_R, z0_tlog_same_mass_eq, z0_tlog_zero_mass_eq, z0_tlog_t_same_mass_eq, z0_tlog_t_zero_mass_eq, ofReal_energy, ofReal_bose, Complex.ofReal_mul, Complex.ofReal_neg]
  have hm : ∀ a b : ℂ, (L : ℂ) * a * (L * b) = L * L * (a * b) := fun a b => by ring
  have hs : ∀ a b : ℂ, (L : ℂ) * L * a - L * L * b = L * L * (a - b) := fun a b => by ring
  try simp only [energy_scale hL, bose_scale hL, hm, hs, ← mul_neg, neg_neg]
  try simp only [energy_scale hL, bose_scale hL, hm, hs, TL_scale hL0, TL_scale_zero hL0, R0_scale, R0_scale_zero, R0_scale_pz, R0_scale_pz_zero, PF_scale hL0, PF_scale_zero hL0, ZL_scale hL0, ZL_scale_zero hL0]
  field_simp
  try ring

theorem scale_thermal_j_m_t_i {L : ℝ} (hL : 0 < L) (q : ℝ) (m : T) (beta : ℝ) :
    thermal.j_m_t_i (L * q) (ofR L * m) (beta / L) = (ofR L : T) ^ (3 : ℤ) * thermal.j_m_t_i q m beta := by
  have hL0 : (L : ℂ) ≠ 0 := Complex.ofReal_ne_zero.2 hL.ne'
  apply toC_injective
  simp only [map_mul, map_zpow₀, toC_ofR]
  refine (toC_thermal_j_m_t_i (L * q) (ofR L * m) (beta / L)).trans (Eq.trans ?_ (congrArg ((L : ℂ) ^ (3 : ℤ) * ·) (toC_thermal_j_m_t_i q m beta).symm))
  simp only [thermal.j_m_t_i, r_0_eq, r_0_same_mass_eq, tlog_eq, tlog_same_mass_eq, tlog_zero_mass_eq, tlog_l_eq, tlog_l_same_mass_eq, tlog_l_zero_mass_eq, tlog_t_eq, tlog_t_same_mass_eq, tlog_t_zero_mass_eq, zm_r_0_eq, zm_r_0_same_mass_eq, z0_r_0_C, z0_r_0_eq, z0_tlog_eq, z0_tlog_t_eq, toC_complex, toC_real, ofR_complex, ofR_real, toC_ofR, toC_zero, toC_energy, toC_bose, map_mul, map_add, map_neg, map_sub, map_inv₀, map_div₀, map_zpow₀, energy_scale_real hL, fermi_double_scale hL, fermi_double_zero_temp_scale hL]
  try push_cast
  try simp only [z0_r_0_R, z0_tlog_same_mass_eq, z0_tlog_zero_mass_eq, z0_tlog_t_same_mass_eq, z0_tlog_t_zero_mass_eq, ofReal_energy, ofReal_bose, Complex.ofReal_mul, Complex.ofReal_neg]
  have hm : ∀ a b : ℂ, (L : ℂ) * a * (L * b) = L * L * (a * b) := fun a b => by ring
  have hs : ∀ a b : ℂ, (L : ℂ) * L * a - L * L * b = L * L * (a - b) := fun a b => by ring
  try simp only [energy_scale hL, bose_scale hL, hm, hs, ← mul_neg, neg_neg]
  try simp only [energy_scale hL, bose_scale hL, hm, hs, TL_scale hL0, TL_scale_zero hL0, R0_scale, R0_scale_zero, R0_scale_pz, R0_scale_pz_zero, PF_scale hL0, PF_scale_zero hL0, ZL_scale hL0, ZL_scale_zero hL0]
  field_simp
  try ring

theorem scale_thermal_j_0_t_i {L : ℝ} (hL : 0 < L) (q : ℝ) (beta : ℝ) :
    thermal.j_0_t_i (L * q) (beta / L) = L ^ (3 : ℤ) * thermal.j_0_t_i q beta := by
  have hL0 : (L : ℂ) ≠ 0 := Complex.ofReal_ne_zero.2 hL.ne'
  apply Complex.ofReal_injective
  simp only [thermal.j_0_t_i, r_0_eq, r_0_same_mass_eq, tlog_eq, tlog_same_mass_eq, tlog_zero_mass_eq, tlog_l_eq, tlog_l_same_mass_eq, tlog_l_zero_mass_eq, tlog_t_eq, tlog_t_same_mass_eq, tlog_t_zero_mass_eq, zm_r_0_eq, zm_r_0_same_mass_eq, z0_r_0_C, z0_r_0_eq, z0_tlog_eq, z0_tlog_t_eq, toC_complex, toC_real, ofR_complex, ofR_real, toC_ofR, toC_zero, toC_energy, toC_bose, map_mul, map_add, map_neg, map_sub, map_inv₀, map_div₀, map_zpow₀, energy_scale_real hL, fermi_double_scale hL, fermi_double_zero_temp_scale hL]
  try push_cast
  try simp only [z0_r_0_R, z0_tlog_same_mass_eq, z0_tlog_zero_mass_eq, z0_tlog_t_same_mass_eq, z0_tlog_t_zero_mass_eq, ofReal_energy, ofReal_bose, Complex.ofReal_mul, Complex.ofReal_neg]
  have hm : ∀ a b : ℂ, (L : ℂ) * a * (L * b) = L * L * (a * b) := fun a b => by ring
  have hs : ∀ a b : ℂ, (L : ℂ) * L * a - L * L * b = L * L * (a - b) := fun a b => by ring
  try simp only [energy_scale hL, bose_scale hL, hm, hs, ← mul_neg, neg_neg]
  try simp only [energy_scale hL, bose_scale hL, hm, hs, TL_scale hL0, TL_scale_zero hL0, R0_scale, R0_scale_zero, R0_scale_pz, R0_scale_pz_zero, PF_scale hL0, PF_scale_zero hL0, ZL_scale hL0, ZL_scale_zero hL0]
  field_simp
  try ring

theorem scale_thermal_i_m_m_i {L : ℝ} (hL : 0 < L) (q : ℝ) (om : T1) (p : ℝ) (m1 : T2) (m2 : T3) (beta : ℝ) :
    thermal.i_m_m_i (L * q) (ofR L * om) (L * p) (ofR L * m1) (ofR L * m2) (beta / L) = (L : ℂ) ^ (-1 : ℤ) * thermal.i_m_m_i q om p m1 m2 beta := by
  have hL0 : (L : ℂ) ≠ 0 := Complex.ofReal_ne_zero.2 hL.ne'
  rw [toC_thermal_i_m_m_i (L * q) (ofR L * om) (L * p) (ofR L * m1) (ofR L * m2) (beta / L), toC_thermal_i_m_m_i q om p m1 m2 beta]
  simp only [thermal.i_m_m_i, r_0_eq, r_0_same_mass_eq, tlog_eq, tlog_same_mass_eq, tlog_zero_mass_eq, tlog_l_eq, tlog_l_same_mass_eq, tlog_l_zero_mass_eq, tlog_t_eq, tlog_t_same_mass_eq, tlog_t_zero_mass_eq, zm_r_0_eq, zm_r_0_same_mass_eq, z0_r_0_C, z0_r_0_eq, z0_tlog_eq, z0_tlog_t_eq, toC_complex, toC_real, ofR_complex, ofR_real, toC_ofR, toC_zero, toC_energy, toC_bose, map_mul, map_add, map_neg, map_sub, map_inv₀, map_div₀, map_zpow₀, energy_scale_real hL, fermi_double_scale hL, fermi_double_zero_temp_scale hL]
  try push_cast
  try simp only [z0_r_0_R, z0_tlog_same_mass_eq, z0_tlog_zero_mass_eq, z0_tlog_t_same_mass_eq, z0_tlog_t_zero_mass_eq, ofReal_energy, ofReal_bose, Complex.ofReal_mul, Complex.ofReal_neg]
  have hm : ∀ a b : ℂ, (L : ℂ) * a * (L * b) = L * L * (a * b) := fun a b => by ring
  have hs : ∀ a b : ℂ, (L : ℂ) * L * a - L * L * b = L * L * (a - b) := fun a b => by ring
  try simp only [energy_scale hL, bose_scale hL, hm, hs, ← mul_neg, neg_neg]
  try simp only [energy_scale hL, bose_scale hL, hm, hs, TL_scale hL0, TL_scale_zero hL0, R0_scale, R0_scale_zero, R0_scale_pz, R0_scale_pz_zero, PF_scale hL0, PF_scale_zero hL0, ZL_scale hL0, ZL_scale_zero hL0]
  field_simp
  try ring

theorem scale_thermal_i_m_m_i_same_mass {L : ℝ} (hL : 0 < L) (q : ℝ) (om : T1) (p : T2) (m : T3) (beta : ℝ) :
    thermal.i_m_m_i_same_mass (L * q) (ofR L * om) (ofR L * p) (ofR L * m) (beta / L) = (L : ℂ) ^ (-1 : ℤ) * thermal.i_m_m_i_same_mass q om p m beta := by
  have hL0 : (L : ℂ) ≠ 0 := Complex.ofReal_ne_zero.2 hL.ne'
  rw [toC_thermal_i_m_m_i_same_mass (L * q) (ofR L * om) (ofR L * p) (ofR L * m) (beta / L), toC_thermal_i_m_m_i_same_mass q om p m beta]
  simp only [thermal.i_m_m_i_same_mass, r_0_eq, r_0_same_mass_eq, tlog_eq, tlog_same_mass_eq, tlog_zero_mass_eq, tlog_l_eq, tlog_l_same_mass_eq, tlog_l_zero_mass_eq, tlog_t_eq, tlog_t_same_mass_eq, tlog_t_zero_mass_eq, zm_r_0_eq, zm_r_0_same_mass_eq, z0_r_0_C, z0_r_0_eq, z0_tlog_eq, z0_tlog_t_eq, toC_complex, toC_real, ofR_complex, ofR_real, toC_ofR, toC_zero, toC_energy, toC_bose, map_mul, map_add, map_neg, map_sub, map_inv₀, map_div₀, map_zpow₀, energy_scale_real hL, fermi_double_scale hL, fermi_double_zero_temp_scale hL]
  try push_cast
  try simp only [z0_r_0_R, z0_tlog_same_mass_eq, z0_tlog_zero_mass_eq, z0_tlog_t_same_mass_eq, z0_tlog_t_zero_mass_eq, ofReal_energy, ofReal_bose, Complex.ofReal_mul, Complex.ofReal_neg]
  have hm : ∀ a b : ℂ, (L : ℂ) * a * (L * b) = L * L * (a * b) := fun a b => by ring
  have hs : ∀ a b : ℂ, (L : ℂ) * L * a - L * L * b = L * L * (a - b) := fun a b => by ring
  try simp only [energy_scale hL, bose_scale hL, hm, hs, ← mul_neg, neg_neg]
  try simp only [energy_scale hL, bose_scale hL, hm, hs, TL_scale hL0, TL_scale_zero hL0, R0_scale, R0_scale_zero, R0_scale_pz, R0_scale_pz_zero, PF_scale hL0, PF_scale_zero hL0, ZL_scale hL0, ZL_scale_zero hL0]
  field_simp
  try ring

theorem scale_thermal_i_m_0_i {L : ℝ} (hL : 0 < L) (q : ℝ) (om : T1) (p : T2) (m : T3) (beta : ℝ) :
    thermal.i_m_0_i (L * q) (ofR L * om) (ofR L * p) (ofR L * m) (beta / L) = (L : ℂ) ^ (-1 : ℤ) * thermal.i_m_0_i q om p m beta := by
  have hL0 : (L : ℂ) ≠ 0 := Complex.ofReal_ne_zero.2 hL.ne'
  rw [toC_thermal_i_m_0_i (L * q) (ofR L * om) (ofR L * p) (ofR L * m) (beta / L), toC_thermal_i_m_0_i q om p m beta]
  simp only [thermal.i_m_0_i, r_0_eq, r_0_same_mass_eq, tlog_eq, tlog_same_mass_eq, tlog_zero_mass_eq, tlog_l_eq, tlog_l_same_mass_eq, tlog_l_zero_mass_eq, tlog_t_eq, tlog_t_same_mass_eq, tlog_t_zero_mass_eq, zm_r_0_eq, zm_r_0_same_mass_eq, z0_r_0_C, z0_r_0_eq, z0_tlog_eq, z0_tlog_t_eq, toC_complex, toC_real, ofR_complex, ofR_real, toC_ofR, toC_zero, toC_energy, toC_bose, map_mul, map_add, map_neg, map_sub, map_inv₀, map_div₀, map_zpow₀, energy_scale_real hL, fermi_double_scale hL, fermi_double_zero_temp_scale hL]
  try push_cast
  try simp only [z0_r_0_R, z0_tlog_same_mass_eq, z0_tlog_zero_mass_eq, z0_tlog_t_same_mass_eq, z0_tlog_t_zero_mass_eq, ofReal_energy, ofReal_bose, Complex.ofReal_mul, Complex.ofReal_neg]
  have hm : ∀ a b : ℂ, (L : ℂ) * a * (L * b) = L * L * (a * b) := fun a b => by ring
  have hs : ∀ a b : ℂ, (L : ℂ) * L * a - L * L * b = L * L * (a - b) := fun a b => by ring
  try simp only [energy_scale hL, bose_scale hL, hm, hs, ← mul_neg, neg_neg]
  try simp only [energy_scale hL, bose_scale hL, hm, hs, TL_scale hL0, TL_scale_zero hL0, R0_scale, R0_scale_zero, R0_scale_pz, R0_scale_pz_zero, PF_scale hL0, PF_scale_zero hL0, ZL_scale hL0, ZL_scale_zero hL0]
  field_simp
  try ring

theorem scale_thermal_i_0_0_i {L : ℝ} (hL : 0 < L) (q : ℝ) (om : T) (p : ℝ) (beta : ℝ) :
    thermal.i_0_0_i (L * q) (ofR L * om) (L * p) (beta / L) = (L : ℂ) ^ (-1 : ℤ) * thermal.i_0_0_i q om p beta := by
  have hL0 : (L : ℂ) ≠ 0 := Complex.ofReal_ne_zero.2 hL.ne'
  rw [toC_thermal_i_0_0_i (L * q) (ofR L * om) (L * p) (beta / L), toC_thermal_i_0_0_i q om p beta]
  simp only [thermal.i_0_0_i, r_0_eq, r_0_same_mass_eq, tlog_eq, tlog_same_mass_eq, tlog_zero_mass_eq, tlog_l_eq, tlog_l_same_mass_eq, tlog_l_zero_mass_eq, tlog_t_eq, tlog_t_same_mass_eq, tlog_t_zero_mass_eq, zm_r_0_eq, zm_r_0_same_mass_eq, z0_r_0_C, z0_r_0_eq, z0_tlog_eq, z0_tlog_t_eq, toC_complex, toC_real, ofR_complex, ofR_real, toC_ofR, toC_zero, toC_energy, toC_bose, map_mul, map_add, map_neg, map_sub, map_inv₀, map_div₀, map_zpow₀, energy_scale_real hL, fermi_double_scale hL, fermi_double_zero_temp_scale hL]
  try push_cast
  try simp only [z0_r_0_R, z0_tlog_same_mass_eq, z0_tlog_zero_mass_eq, z0_tlog_t_same_mass_eq, z0_tlog_t_zero_mass_eq, ofReal_energy, ofReal_bose, Complex.ofReal_mul, Complex.ofReal_neg]
  have hm : ∀ a b : ℂ, (L : ℂ) * a * (L * b) = L * L * (a * b) := fun a b => by ring
  have hs : ∀ a b : ℂ, (L : ℂ) * L * a - L * L * b = L * L * (a - b) := fun a b => by ring
  try simp only [energy_scale hL, bose_scale hL, hm, hs, ← mul_neg, neg_neg]
  try simp only [energy_scale hL, bose_scale hL, hm, hs, TL_scale hL0, TL_scale_zero hL0, R0_scale, R0_scale_zero, R0_scale_pz, R0_scale_pz_zero, PF_scale hL0, PF_scale_zero hL0, ZL_scale hL0, ZL_scale_zero hL0]
  field_simp
  try ring

theorem scale_thermal_i_m_m_l_i {L : ℝ} (hL : 0 < L) (q : ℝ) (om : T1) (p : ℝ) (m1 : T2) (m2 : T3) (beta : ℝ) :
    thermal.i_m_m_l_i (L * q) (ofR L * om) (L * p) (ofR L * m1) (ofR L * m2) (beta / L) = (L : ℂ) ^ (1 : ℤ) * thermal.i_m_m_l_i q om p m1 m2 beta := by
  have hL0 : (L : ℂ) ≠ 0 := Complex.ofReal_ne_zero.2 hL.ne'
  rw [toC_thermal_i_m_m_l_i (L * q) (ofR L * om) (L * p) (ofR L * m1) (ofR L * m2) (beta / L), toC_thermal_i_m_m_l_i q om p m1 m2 beta]
  simp only [thermal.i_m_m_l_i, r_0_eq, r_0_same_mass_eq, tlog_eq, tlog_same_mass_eq, tlog_zero_mass_eq, tlog_l_eq, tlog_l_same_mass_eq, tlog_l_zero_mass_eq, tlog_t_eq, tlog_t_same_mass_eq, tlog_t_zero_mass_eq, zm_r_0_eq, zm_r_0_same_mass_eq, z0_r_0_C, z0_r_0_eq, z0_tlog_eq, z0_tlog_t_eq, toC_complex, toC_real, ofR_complex, ofR_real, toC_ofR, toC_zero, toC_energy, toC_bose, map_mul, map_add, map_neg, map_sub, map_inv₀, map_div₀, map_zpow₀, energy_scale_real hL, fermi_double_scale hL, fermi_double_zero_temp_scale hL]
  try push_cast
  try simp only [z0_r_0_R, z0_tlog_same_mass_eq, z0_tlog_zero_mass_eq, z0_tlog_t_same_mass_eq, z0_tlog_t_zero_mass_eq, ofReal_energy, ofReal_bose, Complex.ofReal_mul, Complex.ofReal_neg]
  have hm : ∀ a b : ℂ, (L : ℂ) * a * (L * b) = L * L * (a * b) := fun a b => by ring
  have hs : ∀ a b : ℂ, (L : ℂ) * L * a - L * L * b = L * L * (a - b) := fun a b => by ring
  try simp only [energy_scale hL, bose_scale hL, hm, hs, ← mul_neg, neg_neg]
  try simp only [energy_scale hL, bose_scale hL, hm, hs, TL_scale hL0, TL_scale_zero hL0, R0_scale, R0_scale_zero, R0_scale_pz, R0_scale_pz_zero, PF_scale hL0, PF_scale_zero hL0, ZL_scale hL0, ZL_scale_zero hL0]
  field_simp
  try ring

theorem scale_thermal_i_m_m_l_i_same_mass {L : ℝ} (hL : 0 < L) (q : ℝ) (om : T1) (p : T2) (m : T3) (beta : ℝ) :
    thermal.i_m_m_l_i_same_mass (L * q) (ofR L * om) (ofR L * p) (ofR L * m) (beta / L) = (L : ℂ) ^ (1 : ℤ) * thermal.i_m_m_l_i_same_mass q om p m beta := by
  have hL0 : (L : ℂ) ≠ 0 := Complex.ofReal_ne_zero.2 hL.ne'
  rw [toC_thermal_i_m_m_l_i_same_mass (L * q) (ofR L * om) (ofR L * p) (ofR L * m) (beta / L), toC_thermal_i_m_m_l_i_same_mass q om p m beta]
  simp only [thermal.i_m_m_l_i_same_mass, r_0_eq, r_0_same_mass_eq, tlog_eq, tlog_same_mass_eq, tlog_zero_mass_eq, tlog_l_eq, tlog_l_same_mass_eq, tlog_l_zero_mass_eq, tlog_t_eq, tlog_t_same_mass_eq, tlog_t_zero_mass_eq, zm_r_0_eq, zm_r_0_same_mass_eq, z0_r_0_C, z0_r_0_eq, z0_tlog_eq, z0_tlog_t_eq, toC_complex, toC_real, ofR_complex, ofR_real, toC_ofR, toC_zero, toC_energy, toC_bose, map_mul, map_add, map_neg, map_sub, map_inv₀, map_div₀, map_zpow₀, energy_scale_real hL, fermi_double_scale hL, fermi_double_zero_temp_scale hL]
  try push_cast
  try simp only [z0_r_0_R, z0_tlog_same_mass_eq, z0_tlog_zero_mass_eq, z0_tlog_t_same_mass_eq, z0_tlog_t_zero_mass_eq, ofReal_energy, ofReal_bose, Complex.ofReal_mul, Complex.ofReal_neg]
  have hm : ∀ a b : ℂ, (L : ℂ) * a * (L * b) = L * L * (a * b) := fun a b => by ring
  have hs : ∀ a b : ℂ, (L : ℂ) * L * a - L * L * b = L * L * (a - b) := fun a b => by ring
  try simp only [energy_scale hL, bose_scale hL, hm, hs, ← mul_neg, neg_neg]
  try simp only [energy_scale hL, bose_scale hL, hm, hs, TL_scale hL0, TL_scale_zero hL0, R0_scale, R0_scale_zero, R0_scale_pz, R0_scale_pz_zero, PF_scale hL0, PF_scale_zero hL0, ZL_scale hL0, ZL_scale_zero hL0]
  field_simp
  try ring

theorem scale_thermal_i_m_0_l_i {L : ℝ} (hL : 0 < L) (q : ℝ) (om : T1) (p : T2) (m : T3) (beta : ℝ) :
    thermal.i_m_0_l_i (L * q) (ofR L * om) (ofR L * p) (ofR L * m) (beta / L) = (L : ℂ) ^ (1 : ℤ) * thermal.i_m_0_l_i q om p m beta := by
  have hL0 : (L : ℂ) ≠ 0 := Complex.ofReal_ne_zero.2 hL.ne'
  rw [toC_thermal_i_m_0_l_i (L * q) (ofR L * om) (ofR L * p) (ofR L * m) (beta / L), toC_thermal_i_m_0_l_i q om p m beta]
  simp only [thermal.i_m_0_l_i, r_0_eq, r_0_same_mass_eq, tlog_eq, tlog_same_mass_eq, tlog_zero_mass_eq, tlog_l_eq, tlog_l_same_mass_eq, tlog_l_zero_mass_eq, tlog_t_eq, tlog_t_same_mass_eq, tlog_t_zero_mass_eq, zm_r_0_eq, zm_r_0_same_mass_eq, z0_r_0_C, z0_r_0_eq, z0_tlog_eq, z0_tlog_t_eq, toC_complex, toC_real, ofR_complex, ofR_real, toC_ofR, toC_zero, toC_energy, toC_bose, map_mul, map_add, map_neg, map_sub, map_inv₀, map_div₀, map_zpow₀, energy_scale_real hL, fermi_double_scale hL, fermi_double_zero_temp_scale hL]
  try push_cast
  try simp only [z0_r_0_R, z0_tlog_same_mass_eq, z0_tlog_zero_mass_eq, z0_tlog_t_same_mass_eq, z0_tlog_t_zero_mass_eq, ofReal_energy, ofReal_bose, Complex.ofReal_mul, Complex.ofReal_neg]
  have hm : ∀ a b : ℂ, (L : ℂ) * a * (L * b) = L * L * (a * b) := fun a b => by ring
  have hs : ∀ a b : ℂ, (L : ℂ) * L * a - L * L * b = L * L * (a - b) := fun a b => by ring
  try simp only [energy_scale hL, bose_scale hL, hm, hs, ← mul_neg, neg_neg]
  try simp only [energy_scale hL, bose_scale hL, hm, hs, TL_scale hL0, TL_scale_zero hL0, R0_scale, R0_scale_zero, R0_scale_pz, R0_scale_pz_zero, PF_scale hL0, PF_scale_zero hL0, ZL_scale hL0, ZL_scale_zero hL0]
  field_simp
  try ring

theorem scale_thermal_i_0_0_l_i {L : ℝ} (hL : 0 < L) (q : ℝ) (om : T1) (p : T2) (beta : ℝ) :
    thermal.i_0_0_l_i (L * q) (ofR L * om) (ofR L * p) (beta / L) = (L : ℂ) ^ (1 : ℤ) * thermal.i_0_0_l_i q om p beta := by
  have hL0 : (L : ℂ) ≠ 0 := Complex.ofReal_ne_zero.2 hL.ne'
  rw [toC_thermal_i_0_0_l_i (L * q) (ofR L * om) (ofR L * p) (beta / L), toC_thermal_i_0_0_l_i q om p beta]
  simp only [thermal.i_0_0_l_i, r_0_eq, r_0_same_mass_eq, tlog_eq, tlog_same_mass_eq, tlog_zero_mass_eq, tlog_l_eq, tlog_l_same_mass_eq, tlog_l_zero_mass_eq, tlog_t_eq, tlog_t_same_mass_eq, tlog_t_zero_mass_eq, zm_r_0_eq, zm_r_0_same_mass_eq, z0_r_0_C, z0_r_0_eq, z0_tlog_eq, z0_tlog_t_eq, toC_complex, toC_real, ofR_complex, ofR_real, toC_ofR, toC_zero, toC_energy, toC_bose, map_mul, map_add, map_neg, map_sub, map_inv₀, map_div₀, map_zpow₀, energy_scale_real hL, fermi_double_scale hL, fermi_double_zero_temp_scale hL]
  try push_cast
  try simp only [z0_r_0_R, z0_tlog_same_mass_eq, z0_tlog_zero_mass_eq, z0_tlog_t_same_mass_eq, z0_tlog_t_zero_mass_eq, ofReal_energy, ofReal_bose, Complex.ofReal_mul, Complex.ofReal_neg]
  have hm : ∀ a b : ℂ, (L : ℂ) * a * (L * b) = L * L * (a * b) := fun a b => by ring
  have hs : ∀ a b : ℂ, (L : ℂ) * L * a - L * L * b = L * L * (a - b) := fun a b => by ring
  try simp only [energy_scale hL, bose_scale hL, hm, hs, ← mul_neg, neg_neg]
  try simp only [energy_scale hL, bose_scale hL, hm, hs, TL_scale hL0, TL_scale_zero hL0, R0_scale, R0_scale_zero, R0_scale_pz, R0_scale_pz_zero, PF_scale hL0, PF_scale_zero hL0, ZL_scale hL0, ZL_scale_zero hL0]
  field_simp
  try ring

theorem scale_thermal_i_m_m_t_i {L : ℝ} (hL : 0 < L) (q : ℝ) (om : T1) (p : ℝ) (m1 : T2) (m2 : T3) (beta : ℝ) :
    thermal.i_m_m_t_i (L * q) (ofR L * om) (L * p) (ofR L * m1) (ofR L * m2) (beta / L) = (L : ℂ) ^ (1 : ℤ) * thermal.i_m_m_t_i q om p m1 m2 beta := by
  have hL0 : (L : ℂ) ≠ 0 := Complex.ofReal_ne_zero.2 hL.ne'
  rw [toC_thermal_i_m_m_t_i (L * q) (ofR L * om) (L * p) (ofR L * m1) (ofR L * m2) (beta / L), toC_thermal_i_m_m_t_i q om p m1 m2 beta]
  simp only [thermal.i_m_m_t_i, r_0_eq, r_0_same_mass_eq, tlog_eq, tlog_same_mass_eq, tlog_zero_mass_eq, tlog_l_eq, tlog_l_same_mass_eq, tlog_l_zero_mass_eq, tlog_t_eq, tlog_t_same_mass_eq, tlog_t_zero_mass_eq, zm_r_0_eq, zm_r_0_same_mass_eq, z0_r_0_C, z0_r_0_eq, z0_tlog_eq, z0_tlog_t_eq, toC_complex, toC_real, ofR_complex, ofR_real, toC_ofR, toC_zero, toC_energy, toC_bose, map_mul, map_add, map_neg, map_sub, map_inv₀, map_div₀, map_zpow₀, energy_scale_real hL, fermi_double_scale hL, fermi_double_zero_temp_scale hL]
  try push_cast
  try simp only [z0_r_0_R, z0_tlog_same_mass_eq, z0_tlog_zero_mass_eq, z0_tlog_t_same_mass_eq, z0_tlog_t_zero_mass_eq, ofReal_energy, ofReal_bose, Complex.ofReal_mul, Complex.ofReal_neg]
  have hm : ∀ a b : ℂ, (L : ℂ) * a * (L * b) = L * L * (a * b) := fun a b => by ring
  have hs : ∀ a b : ℂ, (L : ℂ) * L * a - L * L * b = L * L * (a - b) := fun a b => by ring
  try simp only [energy_scale hL, bose_scale hL, hm, hs, ← mul_neg, neg_neg]
  try simp only [energy_scale hL, bose_scale hL, hm, hs, TL_scale hL0, TL_scale_zero hL0, R0_scale, R0_scale_zero, R0_scale_pz, R0_scale_pz_zero, PF_scale hL0, PF_scale_zero hL0, ZL_scale hL0, ZL_scale_zero hL0]
  field_simp
  try ring

theorem scale_thermal_i_m_m_t_i_same_mass {L : ℝ} (hL : 0 < L) (q : ℝ) (om : T1) (p : ℝ) (m : T2) (beta : ℝ) :
    thermal.i_m_m_t_i_same_mass (L * q) (ofR L * om) (L * p) (ofR L * m) (beta / L) = (L : ℂ) ^ (1 : ℤ) * thermal.i_m_m_t_i_same_mass q om p m beta := by
  have hL0 : (L : ℂ) ≠ 0 := Complex.ofReal_ne_zero.2 hL.ne'
  rw [toC_thermal_i_m_m_t_i_same_mass (L * q) (ofR L * om) (L * p) (ofR L * m) (beta / L), toC_thermal_i_m_m_t_i_same_mass q om p m beta]
  simp only [thermal.i_m_m_t_i_same_mass, r_0_eq, r_0_same_mass_eq, tlog_eq, tlog_same_mass_eq, tlog_zero_mass_eq, tlog_l_eq, tlog_l_same_mass_eq, tlog_l_zero_mass_eq, tlog_t_eq, tlog_t_same_mass_eq, tlog_t_zero_mass_eq, zm_r_0_eq, zm_r_0_same_mass_eq, z0_r_0_C, z0_r_0_eq, z0_tlog_eq, z0_tlog_t_eq, toC_complex, toC_real, ofR_complex, ofR_real, toC_ofR, toC_zero, toC_energy, toC_bose, map_mul, map_add, map_neg, map_sub, map_inv₀, map_div₀, map_zpow₀, energy_scale_real hL, fermi_double_scale hL, fermi_double_zero_temp_scale hL]
  try push_cast
  try simp only [z0_r_0_R, z0_tlog_same_mass_eq, z0_tlog_zero_mass_eq, z0_tlog_t_same_mass_eq, z0_tlog_t_zero_mass_eq, ofReal_energy, ofReal_bose, Complex.ofReal_mul, Complex.ofReal_neg]
  have hm : ∀ a b : ℂ, (L : ℂ) * a * (L * b) = L * L * (a * b) := fun a b => by ring
  have hs : ∀ a b : ℂ, (L : ℂ) * L * a - L * L * b = L * L * (a - b) := fun a b => by ring
  try simp only [energy_scale hL, bose_scale hL, hm, hs, ← mul_neg, neg_neg]
  try simp only [energy_scale hL, bose_scale hL, hm, hs, TL_scale hL0, TL_scale_zero hL0, R0_scale, R0_scale_zero, R0_scale_pz, R0_scale_pz_zero, PF_scale hL0, PF_scale_zero hL0, ZL_scale hL0, ZL_scale_zero hL0]
  field_simp
  try ring

theorem scale_thermal_i_m_0_t_i {L : ℝ} (hL : 0 < L) (q : ℝ) (om : T1) (p : ℝ) (m : T2) (beta : ℝ) :
    thermal.i_m_0_t_i (L * q) (ofR L * om) (L * p) (ofR L * m) (beta / L) = (L : ℂ) ^ (1 : ℤ) * thermal.i_m_0_t_i q om p m beta := by
  have hL0 : (L : ℂ) ≠ 0 := Complex.ofReal_ne_zero.2 hL.ne'
  rw [toC_thermal_i_m_0_t_i (L * q) (ofR L * om) (L * p) (ofR L * m) (beta / L), toC_thermal_i_m_0_t_i q om p m beta]
  simp only [thermal.i_m_0_t_i, r_0_eq, r_0_same_mass_eq, tlog_eq, tlog_same_mass_eq, tlog_zero_mass_eq, tlog_l_eq, tlog_l_same_mass_eq, tlog_l_zero_mass_eq, tlog_t_eq, tlog_t_same_mass_eq, tlog_t_zero_mass_eq, zm_r_0_eq, zm_r_0_same_mass_eq, z0_r_0_C, z0_r_0_eq, z0_tlog_eq, z0_tlog_t_eq, toC_complex, toC_real, ofR_complex, ofR_real, toC_ofR, toC_zero, toC_energy, toC_bose, map_mul, map_add, map_neg, map_sub, map_inv₀, map_div₀, map_zpow₀, energy_scale_real hL, fermi_double_scale hL, fermi_double_zero_temp_scale hL]
  try push_cast
  try simp only [z0_r_0_R, z0_tlog_same_mass_eq, z0_tlog_zero_mass_eq, z0_tlog_t_same_mass_eq, z0_tlog_t_zero_mass_eq, ofReal_energy, ofReal_bose, Complex.ofReal_mul, Complex.ofReal_neg]
  have hm : ∀ a b : ℂ, (L : ℂ) * a * (L * b) = L * L * (a * b) := fun a b => by ring
  have hs : ∀ a b : ℂ, (L : ℂ) * L * a - L * L * b = L * L * (a - b) := fun a b => by ring
  try simp only [energy_scale hL, bose_scale hL, hm, hs, ← mul_neg, neg_neg]
  try simp only [energy_scale hL, bose_scale hL, hm, hs, TL_scale hL0, TL_scale_zero hL0, R0_scale, R0_scale_zero, R0_scale_pz, R0_scale_pz_zero, PF_scale hL0, PF_scale_zero hL0, ZL_scale hL0, ZL_scale_zero hL0]
  field_simp
  try ring

theorem scale_thermal_i_0_0_t_i {L : ℝ} (hL : 0 < L) (q : ℝ) (om : T) (p : ℝ) (beta : ℝ) :
    thermal.i_0_0_t_i (L * q) (ofR L * om) (L * p) (beta / L) = (L : ℂ) ^ (1 : ℤ) * thermal.i_0_0_t_i q om p beta := by
  have hL0 : (L : ℂ) ≠ 0 := Complex.ofReal_ne_zero.2 hL.ne'
  rw [toC_thermal_i_0_0_t_i (L * q) (ofR L * om) (L * p) (beta / L), toC_thermal_i_0_0_t_i q om p beta]
  simp only [thermal.i_0_0_t_i, r_0_eq, r_0_same_mass_eq, tlog_eq, tlog_same_mass_eq, tlog_zero_mass_eq, tlog_l_eq, tlog_l_same_mass_eq, tlog_l_zero_mass_eq, tlog_t_eq, tlog_t_same_mass_eq, tlog_t_zero_mass_eq, zm_r_0_eq, zm_r_0_same_mass_eq, z0_r_0_C, z0_r_0_eq, z0_tlog_eq, z0_tlog_t_eq, toC_complex, toC_real, ofR_complex, ofR_real, toC_ofR, toC_zero, toC_energy, toC_bose, map_mul, map_add, map_neg, map_sub, map_inv₀, map_div₀, map_zpow₀, energy_scale_real hL, fermi_double_scale hL, fermi_double_zero_temp_scale hL]
  try push_cast
  try simp only [z0_r_0_R, z0_tlog_same_mass_eq, z0_tlog_zero_mass_eq, z0_tlog_t_same_mass_eq, z0_tlog_t_zero_mass_eq, ofReal_energy, ofReal_bose, Complex.ofReal_mul, Complex.ofReal_neg]
  have hm : ∀ a b : ℂ, (L : ℂ) * a * (L * b) = L * L * (a * b) := fun a b => by ring
  have hs : ∀ a b : ℂ, (L : ℂ) * L * a - L * L * b = L * L * (a - b) := fun a b => by ring
  try simp only [energy_scale hL, bose_scale hL, hm, hs, ← mul_neg, neg_neg]
  try simp only [energy_scale hL, bose_scale hL, hm, hs, TL_scale hL0, TL_scale_zero hL0, R0_scale, R0_scale_zero, R0_scale_pz, R0_scale_pz_zero, PF_scale hL0, PF_scale_zero hL0, ZL_scale hL0, ZL_scale_zero hL0]
  field_simp
  try ring

theorem scale_thermal_d_j_m_i {L : ℝ} (hL : 0 < L) (q : ℝ) (m : T) (beta : ℝ) :
    thermal.d_j_m_i (L * q) (ofR L * m) (beta / L) = (ofR L : T) ^ (-1 : ℤ) * thermal.d_j_m_i q m beta := by
  have hL0 : (L : ℂ) ≠ 0 := Complex.ofReal_ne_zero.2 hL.ne'
  apply toC_injective
  simp only [map_mul, map_zpow₀, toC_ofR]
  refine (toC_thermal_d_j_m_i (L * q) (ofR L * m) (beta / L)).trans (Eq.trans ?_ (congrArg ((L : ℂ) ^ (-1 : ℤ) * ·) (toC_thermal_d_j_m_i q m beta).symm))
  simp only [thermal.d_j_m_i, r_0_eq, r_0_same_mass_eq, tlog_eq, tlog_same_mass_eq, tlog_zero_mass_eq, tlog_l_eq, tlog_l_same_mass_eq, tlog_l_zero_mass_eq, tlog_t_eq, tlog_t_same_mass_eq, tlog_t_zero_mass_eq, zm_r_0_eq, zm_r_0_same_mass_eq, z0_r_0_C, z0_r_0_eq, z0_tlog_eq, z0_tlog_t_eq, toC_complex, toC_real, ofR_complex, ofR_real, toC_ofR, toC_zero, toC_energy, toC_bose, map_mul, map_add, map_neg, map_sub, map_inv₀, map_div₀, map_zpow₀, energy_scale_real hL, fermi_double_scale hL, fermi_double_zero_temp_scale hL]
  try push_cast
  try simp only [z0_r_0_R, z0_tlog_same_mass_eq, z0_tlog_zero_mass_eq, z0_tlog_t_same_mass_eq, z0_tlog_t_zero_mass_eq, ofReal_energy, ofReal_bose, Complex.ofReal_mul, Complex.ofReal_neg]
  have hm : ∀ a b : ℂ, (L : ℂ) * a * (L * b) = L * L * (a * b) := fun a b => by ring
  have hs : ∀ a b : ℂ, (L : ℂ) * L * a - L * L * b = L * L * (a - b) := fun a b => by ring
  try simp only [energy_scale hL, bose_scale hL, hm, hs, ← mul_neg, neg_neg]
  try simp only [energy_scale hL, bose_scale hL, hm, hs, TL_scale hL0, TL_scale_zero hL0, R0_scale, R0_scale_zero, R0_scale_pz, R0_scale_pz_zero, PF_scale hL0, PF_scale_zero hL0, ZL_scale hL0, ZL_scale_zero hL0]
  field_simp
  try ring

theorem scale_thermal_d_j_0_i {L : ℝ} (hL : 0 < L) (q : ℝ) (beta : ℝ) :
    thermal.d_j_0_i (L * q) (beta / L) = L ^ (-1 : ℤ) * thermal.d_j_0_i q beta := by
  have hL0 : (L : ℂ) ≠ 0 := Complex.ofReal_ne_zero.2 hL.ne'
  apply Complex.ofReal_injective
  simp only [thermal.d_j_0_i, r_0_eq, r_0_same_mass_eq, tlog_eq, tlog_same_mass_eq, tlog_zero_mass_eq, tlog_l_eq, tlog_l_same_mass_eq, tlog_l_zero_mass_eq, tlog_t_eq, tlog_t_same_mass_eq, tlog_t_zero_mass_eq, zm_r_0_eq, zm_r_0_same_mass_eq, z0_r_0_C, z0_r_0_eq, z0_tlog_eq, z0_tlog_t_eq, toC_complex, toC_real, ofR_complex, ofR_real, toC_ofR, toC_zero, toC_energy, toC_bose, map_mul, map_add, map_neg, map_sub, map_inv₀, map_div₀, map_zpow₀, energy_scale_real hL, fermi_double_scale hL, fermi_double_zero_temp_scale hL]
  try push_cast
  try simp only [z0_r_0_R, z0_tlog_same_mass_eq, z0_tlog_zero_mass_eq, z0_tlog_t_same_mass_eq, z0_tlog_t_zero_mass_eq, ofReal_energy, ofReal_bose, Complex.ofReal_mul, Complex.ofReal_neg]
  have hm : ∀ a b : ℂ, (L : ℂ) * a * (L * b) = L * L * (a * b) := fun a b => by ring
  have hs : ∀ a b : ℂ, (L : ℂ) * L * a - L * L * b = L * L * (a - b) := fun a b => by ring
  try simp only [energy_scale hL, bose_scale hL, hm, hs, ← mul_neg, neg_neg]
  try simp only [energy_scale hL, bose_scale hL, hm, hs, TL_scale hL0, TL_scale_zero hL0, R0_scale, R0_scale_zero, R0_scale_pz, R0_scale_pz_zero, PF_scale hL0, PF_scale_zero hL0, ZL_scale hL0, ZL_scale_zero hL0]
  field_simp
  try ring

theorem scale_thermal_d2_j_m_i {L : ℝ} (hL : 0 < L) (q : ℝ) (m : T) (beta : ℝ) :
    thermal.d2_j_m_i (L * q) (ofR L * m) (beta / L) = (ofR L : T) ^ (-3 : ℤ) * thermal.d2_j_m_i q m beta := by
  have hL0 : (L : ℂ) ≠ 0 := Complex.ofReal_ne_zero.2 hL.ne'
  apply toC_injective
  simp only [map_mul, map_zpow₀, toC_ofR]
  refine (toC_thermal_d2_j_m_i (L * q) (ofR L * m) (beta / L)).trans (Eq.trans ?_ (congrArg ((L : ℂ) ^ (-3 : ℤ) * ·) (toC_thermal_d2_j_m_i q m beta).symm))
  simp only [thermal.d2_j_m_i, r_0_eq, r_0_same_mass_eq, tlog_eq, tlog_same_mass_eq, tlog_zero_mass_eq, tlog_l_eq, tlog_l_same_mass_eq, tlog_l_zero_mass_eq, tlog_t_eq, tlog_t_same_mass_eq, tlog_t_zero_mass_eq, zm_r_0_eq, zm_r_0_same_mass_eq, z0_r_0_C, z0_r_0_eq, z0_tlog_eq, z0_tlog_t_eq, toC_complex, toC_real, ofR_complex, ofR_real, toC_ofR, toC_zero, toC_energy, toC_bose, map_mul, map_add, map_neg, map_sub, map_inv₀, map_div₀, map_zpow₀, energy_scale_real hL, fermi_double_scale hL, fermi_double_zero_temp_scale hL]
  try push_cast
  try simp only [z0_r_0_R, z0_tlog_same_mass_eq, z0_tlog_zero_mass_eq, z0_tlog_t_same_mass_eq, z0_tlog_t_zero_mass_eq, ofReal_energy, ofReal_bose, Complex.ofReal_mul, Complex.ofReal_neg]
  have hm : ∀ a b : ℂ, (L : ℂ) * a * (L * b) = L * L * (a * b) := fun a b => by ring
  have hs : ∀ a b : ℂ, (L : ℂ) * L * a - L * L * b = L * L * (a - b) := fun a b => by ring
  try simp only [energy_scale hL, bose_scale hL, hm, hs, ← mul_neg, neg_neg]
  try simp only [energy_scale hL, bose_scale hL, hm, hs, TL_scale hL0, TL_scale_zero hL0, R0_scale, R0_scale_zero, R0_scale_pz, R0_scale_pz_zero, PF_scale hL0, PF_scale_zero hL0, ZL_scale hL0, ZL_scale_zero hL0]
  field_simp
  try ring

theorem scale_thermal_d2_j_0_i {L : ℝ} (hL : 0 < L) (q : ℝ) (beta : ℝ) :
    thermal.d2_j_0_i (L * q) (beta / L) = L ^ (-3 : ℤ) * thermal.d2_j_0_i q beta := by
  have hL0 : (L : ℂ) ≠ 0 := Complex.ofReal_ne_zero.2 hL.ne'
  apply Complex.ofReal_injective
  simp only [thermal.d2_j_0_i, r_0_eq, r_0_same_mass_eq, tlog_eq, tlog_same_mass_eq, tlog_zero_mass_eq, tlog_l_eq, tlog_l_same_mass_eq, tlog_l_zero_mass_eq, tlog_t_eq, tlog_t_same_mass_eq, tlog_t_zero_mass_eq, zm_r_0_eq, zm_r_0_same_mass_eq, z0_r_0_C, z0_r_0_eq, z0_tlog_eq, z0_tlog_t_eq, toC_complex, toC_real, ofR_complex, ofR_real, toC_ofR, toC_zero, toC_energy, toC_bose, map_mul, map_add, map_neg, map_sub, map_inv₀, map_div₀, map_zpow₀, energy_scale_real hL, fermi_double_scale hL, fermi_double_zero_temp_scale hL]
  try push_cast
  try simp only [z0_r_0_R, z0_tlog_same_mass_eq, z0_tlog_zero_mass_eq, z0_tlog_t_same_mass_eq, z0_tlog_t_zero_mass_eq, ofReal_energy, ofReal_bose, Complex.ofReal_mul, Complex.ofReal_neg]
  have hm : ∀ a b : ℂ, (L : ℂ) * a * (L * b) = L * L * (a * b) := fun a b => by ring
  have hs : ∀ a b : ℂ, (L : ℂ) * L * a - L * L * b = L * L * (a - b) := fun a b => by ring
  try simp only [energy_scale hL, bose_scale hL, hm, hs, ← mul_neg, neg_neg]
  try simp only [energy_scale hL, bose_scale hL, hm, hs, TL_scale hL0, TL_scale_zero hL0, R0_scale, R0_scale_zero, R0_scale_pz, R0_scale_pz_zero, PF_scale hL0, PF_scale_zero hL0, ZL_scale hL0, ZL_scale_zero hL0]
  field_simp
  try ring

theorem scale_thermal_d_j_m_l_i {L : ℝ} (hL : 0 < L) (q : ℝ) (m : T) (beta : ℝ) :
    thermal.d_j_m_l_i (L * q) (ofR L * m) (beta / L) = (ofR L : T) ^ (1 : ℤ) * thermal.d_j_m_l_i q m beta := by
  have hL0 : (L : ℂ) ≠ 0 := Complex.ofReal_ne_zero.2 hL.ne'
  apply toC_injective
  simp only [map_mul, map_zpow₀, toC_ofR]
  refine (toC_thermal_d_j_m_l_i (L * q) (ofR L * m) (beta / L)).trans (Eq.trans ?_ (congrArg ((L : ℂ) ^ (1 : ℤ) * ·) (toC_thermal_d_j_m_l_i q m beta).symm))
  simp only [thermal.d_j_m_l_i, r_0_eq, r_0_same_mass_eq, tlog_eq, tlog_same_mass_eq, tlog_zero_mass_eq, tlog_l_eq, tlog_l_same_mass_eq, tlog_l_zero_mass_eq, tlog_t_eq, tlog_t_same_mass_eq, tlog_t_zero_mass_eq, zm_r_0_eq, zm_r_0_same_mass_eq, z0_r_0_C, z0_r_0_eq, z0_tlog_eq, z0_tlog_t_eq, toC_complex, toC_real, ofR_complex, ofR_real, toC_ofR, toC_zero, toC_energy, toC_bose, map_mul, map_add, map_neg, map_sub, map_inv₀, map_div₀, map_zpow₀, energy_scale_real hL, fermi_double_scale hL, fermi_double_zero_temp_scale hL]
  try push_cast
  try simp only [z0_r_0_R, z0_tlog_same_mass_eq, z0_tlog_zero_mass_eq, z0_tlog_t_same_mass_eq, z0_tlog_t_zero_mass_eq, ofReal_energy, ofReal_bose, Complex.ofReal_mul, Complex.ofReal_neg]
  have hm : ∀ a b : ℂ, (L : ℂ) * a * (L * b) = L * L * (a * b) := fun a b => by ring
  have hs : ∀ a b : ℂ, (L : ℂ) * L * a - L * L * b = L * L * (a - b) := fun a b => by ring
  try simp only [energy_scale hL, bose_scale hL, hm, hs, ← mul_neg, neg_neg]
  try simp only [energy_scale hL, bose_scale hL, hm, hs, TL_scale hL0, TL_scale_zero hL0, R0_scale, R0_scale_zero, R0_scale_pz, R0_scale_pz_zero, PF_scale hL0, PF_scale_zero hL0, ZL_scale hL0, ZL_scale_zero hL0]
  field_simp
  try ring

theorem scale_thermal_d_j_0_l_i {L : ℝ} (hL : 0 < L) (q : ℝ) (beta : ℝ) :
    thermal.d_j_0_l_i (L * q) (beta / L) = L ^ (1 : ℤ) * thermal.d_j_0_l_i q beta := by
  have hL0 : (L : ℂ) ≠ 0 := Complex.ofReal_ne_zero.2 hL.ne'
  apply Complex.ofReal_injective
  simp only [thermal.d_j_0_l_i, r_0_eq, r_0_same_mass_eq, tlog_eq, tlog_same_mass_eq, tlog_zero_mass_eq, tlog_l_eq, tlog_l_same_mass_eq, tlog_l_zero_mass_eq, tlog_t_eq, tlog_t_same_mass_eq, tlog_t_zero_mass_eq, zm_r_0_eq, zm_r_0_same_mass_eq, z0_r_0_C, z0_r_0_eq, z0_tlog_eq, z0_tlog_t_eq, toC_complex, toC_real, ofR_complex, ofR_real, toC_ofR, toC_zero, toC_energy, toC_bose, map_mul, map_add, map_neg, map_sub, map_inv₀, map_div₀, map_zpow₀, energy_scale_real hL, fermi_double_scale hL, fermi_double_zero_temp_scale hL]
  try push_cast
  try simp only [z0_r_0_R, z0_tlog_same_mass_eq, z0_tlog_zero_mass_eq, z0_tlog_t_same_mass_eq, z0_tlog_t_zero_mass_eq, ofReal_energy, ofReal_bose, Complex.ofReal_mul, Complex.ofReal_neg]
  have hm : ∀ a b : ℂ, (L : ℂ) * a * (L * b) = L * L * (a * b) := fun a b => by ring
  have hs : ∀ a b : ℂ, (L : ℂ) * L * a - L * L * b = L * L * (a - b) := fun a b => by ring
  try simp only [energy_scale hL, bose_scale hL, hm, hs, ← mul_neg, neg_neg]
  try simp only [energy_scale hL, bose_scale hL, hm, hs, TL_scale hL0, TL_scale_zero hL0, R0_scale, R0_scale_zero, R0_scale_pz, R0_scale_pz_zero, PF_scale hL0, PF_scale_zero hL0, ZL_scale hL0, ZL_scale_zero hL0]
  field_simp
  try ring

theorem scale_thermal_d2_j_m_l_i {L : ℝ} (hL : 0 < L) (q : ℝ) (m : T) (beta : ℝ) :
    thermal.d2_j_m_l_i (L * q) (ofR L * m) (beta / L) = (ofR L : T) ^ (-1 : ℤ) * thermal.d2_j_m_l_i q m beta := by
  have hL0 : (L : ℂ) ≠ 0 := Complex.ofReal_ne_zero.2 hL.ne'
  apply toC_injective
  simp only [map_mul, map_zpow₀, toC_ofR]
  refine (toC_thermal_d2_j_m_l_i (L * q) (ofR L * m) (beta / L)).trans (Eq.trans ?_ (congrArg ((L : ℂ) ^ (-1 : ℤ) * ·) (toC_thermal_d2_j_m_l_i q m beta).symm))
  simp only [thermal.d2_j_m_l_i, r_0_eq, r_0_same_mass_eq, tlog_eq, tlog_same_mass_eq, tlog_zero_mass_eq, tlog_l_eq, tlog_l_same_mass_eq, tlog_l_zero_mass_eq, tlog_t_eq, tlog_t_same_mass_eq, tlog_t_zero_mass_eq, zm_r_0_eq, zm_r_0_same_mass_eq, z0_r_0_C, z0_r_0_eq, z0_tlog_eq, z0_tlog_t_eq, toC_complex, toC_real, ofR_complex, ofR_real, toC_ofR, toC_zero, toC_energy, toC_bose, map_mul, map_add, map_neg, map_sub, map_inv₀, map_div₀, map_zpow₀, energy_scale_real hL, fermi_double_scale hL, fermi_double_zero_temp_scale hL]
  try push_cast
  try simp only [z0_r_0_R, z0_tlog_same_mass_eq, z0_tlog_zero_mass_eq, z0_tlog_t_same_mass_eq, z0_tlog_t_zero_mass_eq, ofReal_energy, ofReal_bose, Complex.ofReal_mul, Complex.ofReal_neg]
  have hm : ∀ a b : ℂ, (L : ℂ) * a * (L * b) = L * L * (a * b) := fun a b => by ring
  have hs : ∀ a b : ℂ, (L : ℂ) * L * a - L * L * b = L * L * (a - b) := fun a b => by ring
  try simp only [energy_scale hL, bose_scale hL, hm, hs, ← mul_neg, neg_neg]
  try simp only [energy_scale hL, bose_scale hL, hm, hs, TL_scale hL0, TL_scale_zero hL0, R0_scale, R0_scale_zero, R0_scale_pz, R0_scale_pz_zero, PF_scale hL0, PF_scale_zero hL0, ZL_scale hL0, ZL_scale_zero hL0]
  field_simp
  try ring

theorem scale_thermal_d2_j_0_l_i {L : ℝ} (hL : 0 < L) (q : ℝ) (beta : ℝ) :
    thermal.d2_j_0_l_i (L * q) (beta / L) = L ^ (-1 : ℤ) * thermal.d2_j_0_l_i q beta := by
  have hL0 : (L : ℂ) ≠ 0 := Complex.ofReal_ne_zero.2 hL.ne'
  apply Complex.ofReal_injective
  simp only [thermal.d2_j_0_l_i, r_0_eq, r_0_same_mass_eq, tlog_eq, tlog_same_mass_eq, tlog_zero_mass_eq, tlog_l_eq, tlog_l_same_mass_eq, tlog_l_zero_mass_eq, tlog_t_eq, tlog_t_same_mass_eq, tlog_t_zero_mass_eq, zm_r_0_eq, zm_r_0_same_mass_eq, z0_r_0_C, z0_r_0_eq, z0_tlog_eq, z0_tlog_t_eq, toC_complex, toC_real, ofR_complex, ofR_real, toC_ofR, toC_zero, toC_energy, toC_bose, map_mul, map_add, map_neg, map_sub, map_inv₀, map_div₀, map_zpow₀, energy_scale_real hL, fermi_double_scale hL, fermi_double_zero_temp_scale hL]
  try push_cast
  try simp only [z0_r_0_R, z0_tlog_same_mass_eq, z0_tlog_zero_mass_eq, z0_tlog_t_same_mass_eq, z0_tlog_t_zero_mass_eq, ofReal_energy, ofReal_bose, Complex.ofReal_mul, Complex.ofReal_neg]
  have hm : ∀ a b : ℂ, (L : ℂ) * a * (L * b) = L * L * (a * b) := fun a b => by ring
  have hs : ∀ a b : ℂ, (L : ℂ) * L * a - L * L * b = L * L * (a - b) := fun a b => by ring
  try simp only [energy_scale hL, bose_scale hL, hm, hs, ← mul_neg, neg_neg]
  try simp only [energy_scale hL, bose_scale hL, hm, hs, TL_scale hL0, TL_scale_zero hL0, R0_scale, R0_scale_zero, R0_scale_pz, R0_scale_pz_zero, PF_scale hL0, PF_scale_zero hL0, ZL_scale hL0, ZL_scale_zero hL0]
  field_simp
  try ring

theorem scale_thermal_d_j_m_t_i {L : ℝ} (hL : 0 < L) (q : ℝ) (m : T) (beta : ℝ) :
    thermal.d_j_m_t_i (L * q) (ofR L * m) (beta / L) = (ofR L : T) ^ (1 : ℤ) * thermal.d_j_m_t_i q m beta := by
  have hL0 : (L : ℂ) ≠ 0 := Complex.ofReal_ne_zero.2 hL.ne'
  apply toC_injective
  simp only [map_mul, map_zpow₀, toC_ofR]
  refine (toC_thermal_d_j_m_t_i (L * q) (ofR L * m) (beta / L)).trans (Eq.trans ?_ (congrArg ((L : ℂ) ^ (1 : ℤ) * ·) (toC_thermal_d_j_m_t_i q m beta).symm))
  simp only [thermal.d_j_m_t_i, r_0_eq, r_0_same_mass_eq, tlog_eq, tlog_same_mass_eq, tlog_zero_mass_eq, tlog_l_eq, tlog_l_same_mass_eq, tlog_l_zero_mass_eq, tlog_t_eq, tlog_t_same_mass_eq, tlog_t_zero_mass_eq, zm_r_0_eq, zm_r_0_same_mass_eq, z0_r_0_C, z0_r_0_eq, z0_tlog_eq, z0_tlog_t_eq, toC_complex, toC_real, ofR_complex, ofR_real, toC_ofR, toC_zero, toC_energy, toC_bose, map_mul, map_add, map_neg, map_sub, map_inv₀, map_div₀, map_zpow₀, energy_scale_real hL, fermi_double_scale hL, fermi_double_zero_temp_scale hL]
  try push_cast
  try simp only [z0_r_0_R, z0_tlog_same_mass_eq, z0_tlog_zero_mass_eq, z0_tlog_t_same_mass_eq, z0_tlog_t_zero_mass_eq, ofReal_energy, ofReal_bose, Complex.ofReal_mul, Complex.ofReal_neg]
  have hm : ∀ a b : ℂ, (L : ℂ) * a * (L * b) = L * L * (a * b) := fun a b => by ring
  have hs : ∀ a b : ℂ, (L : ℂ) * L * a - L * L * b = L * L * (a - b) := fun a b => by ring
  try simp only [energy_scale hL, bose_scale hL, hm, hs, ← mul_neg, neg_neg]
  try simp only [energy_scale hL, bose_scale hL, hm, hs, TL_scale hL0, TL_scale_zero hL0, R0_scale, R0_scale_zero, R0_scale_pz, R0_scale_pz_zero, PF_scale hL0, PF_scale_zero hL0, ZL_scale hL0, ZL_scale_zero hL0]
  field_simp
  try ring

theorem scale_thermal_d_j_0_t_i {L : ℝ} (hL : 0 < L) (q : ℝ) (beta : ℝ) :
    thermal.d_j_0_t_i (L * q) (beta / L) = L ^ (1 : ℤ) * thermal.d_j_0_t_i q beta := by
  have hL0 : (L : ℂ) ≠ 0 := Complex.ofReal_ne_zero.2 hL.ne'
  apply Complex.ofReal_injective
  simp only [thermal.d_j_0_t_i, r_0_eq, r_0_same_mass_eq, tlog_eq, tlog_same_mass_eq, tlog_zero_mass_eq, tlog_l_eq, tlog_l_same_mass_eq, tlog_l_zero_mass_eq, tlog_t_eq, tlog_t_same_mass_eq, tlog_t_zero_mass_eq, zm_r_0_eq, zm_r_0_same_mass_eq, z0_r_0_C, z0_r_0_eq, z0_tlog_eq, z0_tlog_t_eq, toC_complex, toC_real, ofR_complex, ofR_real, toC_ofR, toC_zero, toC_energy, toC_bose, map_mul, map_add, map_neg, map_sub, map_inv₀, map_div₀, map_zpow₀, energy_scale_real hL, fermi_double_scale hL, fermi_double_zero_temp_scale hL]
  try push_cast
  try simp only [z0_r_0_R, z0_tlog_same_mass_eq, z0_tlog_zero_mass_eq, z0_tlog_t_same_mass_eq, z0_tlog_t_zero_mass_eq, ofReal_energy, ofReal_bose, Complex.ofReal_mul, Complex.ofReal_neg]
  have hm : ∀ a b : ℂ, (L : ℂ) * a * (L * b) = L * L * (a * b) := fun a b => by ring
  have hs : ∀ a b : ℂ, (L : ℂ) * L * a - L * L * b = L * L * (a - b) := fun a b => by ring
  try simp only [energy_scale hL, bose_scale hL, hm, hs, ← mul_neg, neg_neg]
  try simp only [energy_scale hL, bose_scale hL, hm, hs, TL_scale hL0, TL_scale_zero hL0, R0_scale, R0_scale_zero, R0_scale_pz, R0_scale_pz_zero, PF_scale hL0, PF_scale_zero hL0, ZL_scale hL0, ZL_scale_zero hL0]
  field_simp
  try ring

theorem scale_thermal_d2_j_m_t_i {L : ℝ} (hL : 0 < L) (q : ℝ) (m : T) (beta : ℝ) :
    thermal.d2_j_m_t_i (L * q) (ofR L * m) (beta / L) = (ofR L : T) ^ (-1 : ℤ) * thermal.d2_j_m_t_i q m beta := by
  have hL0 : (L : ℂ) ≠ 0 := Complex.ofReal_ne_zero.2 hL.ne'
  apply toC_injective
  simp only [map_mul, map_zpow₀, toC_ofR]
  refine (toC_thermal_d2_j_m_t_i (L * q) (ofR L * m) (beta / L)).trans (Eq.trans ?_ (congrArg ((L : ℂ) ^ (-1 : ℤ) * ·) (toC_thermal_d2_j_m_t_i q m beta).symm))
  simp only [thermal.d2_j_m_t_i, r_0_eq, r_0_same_mass_eq, tlog_eq, tlog_same_mass_eq, tlog_zero_mass_eq, tlog_l_eq, tlog_l_same_mass_eq, tlog_l_zero_mass_eq, tlog_t_eq, tlog_t_same_mass_eq, tlog_t_zero_mass_eq, zm_r_0_eq, zm_r_0_same_mass_eq, z0_r_0_C, z0_r_0_eq, z0_tlog_eq, z0_tlog_t_eq, toC_complex, toC_real, ofR_complex, ofR_real, toC_ofR, toC_zero, toC_energy, toC_bose, map_mul, map_add, map_neg, map_sub, map_inv₀, map_div₀, map_zpow₀, energy_scale_real hL, fermi_double_scale hL, fermi_double_zero_temp_scale hL]
  try push_cast
  try simp only [z0_r_0_R, z0_tlog_same_mass_eq, z0_tlog_zero_mass_eq, z0_tlog_t_same_mass_eq, z0_tlog_t_zero_mass_eq, ofReal_energy, ofReal_bose, Complex.ofReal_mul, Complex.ofReal_neg]
  have hm : ∀ a b : ℂ, (L : ℂ) * a * (L * b) = L * L * (a * b) := fun a b => by ring
  have hs : ∀ a b : ℂ, (L : ℂ) * L * a - L * L * b = L * L * (a - b) := fun a b => by ring
  try simp only [energy_scale hL, bose_scale hL, hm, hs, ← mul_neg, neg_neg]
  try simp only [energy_scale hL, bose_scale hL, hm, hs, TL_scale hL0, TL_scale_zero hL0, R0_scale, R0_scale_zero, R0_scale_pz, R0_scale_pz_zero, PF_scale hL0, PF_scale_zero hL0, ZL_scale hL0, ZL_scale_zero hL0]
  field_simp
  try ring

theorem scale_thermal_d2_j_0_t_i {L : ℝ} (hL : 0 < L) (q : ℝ) (beta : ℝ) :
    thermal.d2_j_0_t_i (L * q) (beta / L) = L ^ (-1 : ℤ) * thermal.d2_j_0_t_i q beta := by
  have hL0 : (L : ℂ) ≠ 0 := Complex.ofReal_ne_zero.2 hL.ne'
  apply Complex.ofReal_injective
  simp only [thermal.d2_j_0_t_i, r_0_eq, r_0_same_mass_eq, tlog_eq, tlog_same_mass_eq, tlog_zero_mass_eq, tlog_l_eq, tlog_l_same_mass_eq, tlog_l_zero_mass_eq, tlog_t_eq, tlog_t_same_mass_eq, tlog_t_zero_mass_eq, zm_r_0_eq, zm_r_0_same_mass_eq, z0_r_0_C, z0_r_0_eq, z0_tlog_eq, z0_tlog_t_eq, toC_complex, toC_real, ofR_complex, ofR_real, toC_ofR, toC_zero, toC_energy, toC_bose, map_mul, map_add, map_neg, map_sub, map_inv₀, map_div₀, map_zpow₀, energy_scale_real hL, fermi_double_scale hL, fermi_double_zero_temp_scale hL]
  try push_cast
  try simp only [z0_r_0_R, z0_tlog_same_mass_eq, z0_tlog_zero_mass_eq, z0_tlog_t_same_mass_eq, z0_tlog_t_zero_mass_eq, ofReal_energy, ofReal_bose, Complex.ofReal_mul, Complex.ofReal_neg]
  have hm : ∀ a b : ℂ, (L : ℂ) * a * (L * b) = L * L * (a * b) := fun a b => by ring
  have hs : ∀ a b : ℂ, (L : ℂ) * L * a - L * L * b = L * L * (a - b) := fun a b => by ring
  try simp only [energy_scale hL, bose_scale hL, hm, hs, ← mul_neg, neg_neg]
  try simp only [energy_scale hL, bose_scale hL, hm, hs, TL_scale hL0, TL_scale_zero hL0, R0_scale, R0_scale_zero, R0_scale_pz, R0_scale_pz_zero, PF_scale hL0, PF_scale_zero hL0, ZL_scale hL0, ZL_scale_zero hL0]
  field_simp
  try ring

theorem scale_thermal_d_i_m_m_i {L : ℝ} (hL : 0 < L) (q : ℝ) (om : T1) (p : ℝ) (m1 : T2) (m2 : T3) (beta : ℝ) :
    thermal.d_i_m_m_i (L * q) (ofR L * om) (L * p) (ofR L * m1) (ofR L * m2) (beta / L) = (L : ℂ) ^ (-3 : ℤ) * thermal.d_i_m_m_i q om p m1 m2 beta := by
  have hL0 : (L : ℂ) ≠ 0 := Complex.ofReal_ne_zero.2 hL.ne'
  rw [toC_thermal_d_i_m_m_i (L * q) (ofR L * om) (L * p) (ofR L * m1) (ofR L * m2) (beta / L), toC_thermal_d_i_m_m_i q om p m1 m2 beta]
  simp only [thermal.d_i_m_m_i, r_0_eq, r_0_same_mass_eq, tlog_eq, tlog_same_mass_eq, tlog_zero_mass_eq, tlog_l_eq, tlog_l_same_mass_eq, tlog_l_zero_mass_eq, tlog_t_eq, tlog_t_same_mass_eq, tlog_t_zero_mass_eq, zm_r_0_eq, zm_r_0_same_mass_eq, z0_r_0_C, z0_r_0_eq, z0_tlog_eq, z0_tlog_t_eq, toC_complex, toC_real, ofR_complex, ofR_real, toC_ofR, toC_zero, toC_energy, toC_bose, map_mul, map_add, map_neg, map_sub, map_inv₀, map_div₀, map_zpow₀, energy_scale_real hL, fermi_double_scale hL, fermi_double_zero_temp_scale hL]
  try push_cast
  try simp only [z0_r_0_R, z0_tlog_same_mass_eq, z0_tlog_zero_mass_eq, z0_tlog_t_same_mass_eq, z0_tlog_t_zero_mass_eq, ofReal_energy, ofReal_bose, Complex.ofReal_mul, Complex.ofReal_neg]
  have hm : ∀ a b : ℂ, (L : ℂ) * a * (L * b) = L * L * (a * b) := fun a b => by ring
  have hs : ∀ a b : ℂ, (L : ℂ) * L * a - L * L * b = L * L * (a - b) := fun a b => by ring
  try simp only [energy_scale hL, bose_scale hL, hm, hs, ← mul_neg, neg_neg]
  try simp only [energy_scale hL, bose_scale hL, hm, hs, TL_scale hL0, TL_scale_zero hL0, R0_scale, R0_scale_zero, R0_scale_pz, R0_scale_pz_zero, PF_scale hL0, PF_scale_zero hL0, ZL_scale hL0, ZL_scale_zero hL0]
  field_simp
  try ring

theorem scale_thermal_d_i_m_m_i_same_mass {L : ℝ} (hL : 0 < L) (q : ℝ) (om : T1) (p : T2) (m : T3) (beta : ℝ) :
    thermal.d_i_m_m_i_same_mass (L * q) (ofR L * om) (ofR L * p) (ofR L * m) (beta / L) = (L : ℂ) ^ (-3 : ℤ) * thermal.d_i_m_m_i_same_mass q om p m beta := by
  have hL0 : (L : ℂ) ≠ 0 := Complex.ofReal_ne_zero.2 hL.ne'
  rw [toC_thermal_d_i_m_m_i_same_mass (L * q) (ofR L * om) (ofR L * p) (ofR L * m) (beta / L), toC_thermal_d_i_m_m_i_same_mass q om p m beta]
  simp only [thermal.d_i_m_m_i_same_mass, r_0_eq, r_0_same_mass_eq, tlog_eq, tlog_same_mass_eq, tlog_zero_mass_eq, tlog_l_eq, tlog_l_same_mass_eq, tlog_l_zero_mass_eq, tlog_t_eq, tlog_t_same_mass_eq, tlog_t_zero_mass_eq, zm_r_0_eq, zm_r_0_same_mass_eq, z0_r_0_C, z0_r_0_eq, z0_tlog_eq, z0_tlog_t_eq, toC_complex, toC_real, ofR_complex, ofR_real, toC_ofR, toC_zero, toC_energy, toC_bose, map_mul, map_add, map_neg, map_sub, map_inv₀, map_div₀, map_zpow₀, energy_scale_real hL, fermi_double_scale hL, fermi_double_zero_temp_scale hL]
  try push_cast
  try simp only [z0_r_0_R, z0_tlog_same_mass_eq, z0_tlog_zero_mass_eq, z0_tlog_t_same_mass_eq, z0_tlog_t_zero_mass_eq, ofReal_energy, ofReal_bose, Complex.ofReal_mul, Complex.ofReal_neg]
  have hm : ∀ a b : ℂ, (L : ℂ) * a * (L * b) = L * L * (a * b) := fun a b => by ring
  have hs : ∀ a b : ℂ, (L : ℂ) * L * a - L * L * b = L * L * (a - b) := fun a b => by ring
  try simp only [energy_scale hL, bose_scale hL, hm, hs, ← mul_neg, neg_neg]
  try simp only [energy_scale hL, bose_scale hL, hm, hs, TL_scale hL0, TL_scale_zero hL0, R0_scale, R0_scale_zero, R0_scale_pz, R0_scale_pz_zero, PF_scale hL0, PF_scale_zero hL0, ZL_scale hL0, ZL_scale_zero hL0]
  field_simp
  try ring

theorem scale_thermal_d_i_m_0_i {L : ℝ} (hL : 0 < L) (q : ℝ) (om : T1) (p : T2) (m : T3) (beta : ℝ) :
    thermal.d_i_m_0_i (L * q) (ofR L * om) (ofR L * p) (ofR L * m) (beta / L) = (L : ℂ) ^ (-3 : ℤ) * thermal.d_i_m_0_i q om p m beta := by
  have hL0 : (L : ℂ) ≠ 0 := Complex.ofReal_ne_zero.2 hL.ne'
  rw [toC_thermal_d_i_m_0_i (L * q) (ofR L * om) (ofR L * p) (ofR L * m) (beta / L), toC_thermal_d_i_m_0_i q om p m beta]
  simp only [thermal.d_i_m_0_i, r_0_eq, r_0_same_mass_eq, tlog_eq, tlog_same_mass_eq, tlog_zero_mass_eq, tlog_l_eq, tlog_l_same_mass_eq, tlog_l_zero_mass_eq, tlog_t_eq, tlog_t_same_mass_eq, tlog_t_zero_mass_eq, zm_r_0_eq, zm_r_0_same_mass_eq, z0_r_0_C, z0_r_0_eq, z0_tlog_eq, z0_tlog_t_eq, toC_complex, toC_real, ofR_complex, ofR_real, toC_ofR, toC_zero, toC_energy, toC_bose, map_mul, map_add, map_neg, map_sub, map_inv₀, map_div₀, map_zpow₀, energy_scale_real hL, fermi_double_scale hL, fermi_double_zero_temp_scale hL]
  try push_cast
  try simp only [z0_r_0_R, z0_tlog_same_mass_eq, z0_tlog_zero_mass_eq, z0_tlog_t_same_mass_eq, z0_tlog_t_zero_mass_eq, ofReal_energy, ofReal_bose, Complex.ofReal_mul, Complex.ofReal_neg]
  have hm : ∀ a b : ℂ, (L : ℂ) * a * (L * b) = L * L * (a * b) := fun a b => by ring
  have hs : ∀ a b : ℂ, (L : ℂ) * L * a - L * L * b = L * L * (a - b) := fun a b => by ring
  try simp only [energy_scale hL, bose_scale hL, hm, hs, ← mul_neg, neg_neg]
  try simp only [energy_scale hL, bose_scale hL, hm, hs, TL_scale hL0, TL_scale_zero hL0, R0_scale, R0_scale_zero, R0_scale_pz, R0_scale_pz_zero, PF_scale hL0, PF_scale_zero hL0, ZL_scale hL0, ZL_scale_zero hL0]
  field_simp
  try ring

theorem scale_thermal_d_i_0_0_i {L : ℝ} (hL : 0 < L) (q : ℝ) (om : T) (p : ℝ) (beta : ℝ) :
    thermal.d_i_0_0_i (L * q) (ofR L * om) (L * p) (beta / L) = (L : ℂ) ^ (-3 : ℤ) * thermal.d_i_0_0_i q om p beta := by
  have hL0 : (L : ℂ) ≠ 0 := Complex.ofReal_ne_zero.2 hL.ne'
  rw [toC_thermal_d_i_0_0_i (L * q) (ofR L * om) (L * p) (beta / L), toC_thermal_d_i_0_0_i q om p beta]
  simp only [thermal.d_i_0_0_i, r_0_eq, r_0_same_mass_eq, tlog_eq, tlog_same_mass_eq, tlog_zero_mass_eq, tlog_l_eq, tlog_l_same_mass_eq, tlog_l_zero_mass_eq, tlog_t_eq, tlog_t_same_mass_eq, tlog_t_zero_mass_eq, zm_r_0_eq, zm_r_0_same_mass_eq, z0_r_0_C, z0_r_0_eq, z0_tlog_eq, z0_tlog_t_eq, toC_complex, toC_real, ofR_complex, ofR_real, toC_ofR, toC_zero, toC_energy, toC_bose, map_mul, map_add, map_neg, map_sub, map_inv₀, map_div₀, map_zpow₀, energy_scale_real hL, fermi_double_scale hL, fermi_double_zero_temp_scale hL]
  try push_cast
  try simp only [z0_r_0_R, z0_tlog_same_mass_eq, z0_tlog_zero_mass_eq, z0_tlog_t_same_mass_eq, z0_tlog_t_zero_mass_eq, ofReal_energy, ofReal_bose, Complex.ofReal_mul, Complex.ofReal_neg]
  have hm : ∀ a b : ℂ, (L : ℂ) * a * (L * b) = L * L * (a * b) := fun a b => by ring
  have hs : ∀ a b : ℂ, (L : ℂ) * L * a - L * L * b = L * L * (a - b) := fun a b => by ring
  try simp only [energy_scale hL, bose_scale hL, hm, hs, ← mul_neg, neg_neg]
  try simp only [energy_scale hL, bose_scale hL, hm, hs, TL_scale hL0, TL_scale_zero hL0, R0_scale, R0_scale_zero, R0_scale_pz, R0_scale_pz_zero, PF_scale hL0, PF_scale_zero hL0, ZL_scale hL0, ZL_scale_zero hL0]
  field_simp
  try ring

theorem scale_thermal_d_i_m_m_l_i {L : ℝ} (hL : 0 < L) (q : ℝ) (om : T1) (p : ℝ) (m1 : T2) (m2 : T3) (beta : ℝ) :
    thermal.d_i_m_m_l_i (L * q) (ofR L * om) (L * p) (ofR L * m1) (ofR L * m2) (beta / L) = (L : ℂ) ^ (-1 : ℤ) * thermal.d_i_m_m_l_i q om p m1 m2 beta := by
  have hL0 : (L : ℂ) ≠ 0 := Complex.ofReal_ne_zero.2 hL.ne'
  rw [toC_thermal_d_i_m_m_l_i (L * q) (ofR L * om) (L * p) (ofR L * m1) (ofR L * m2) (beta / L), toC_thermal_d_i_m_m_l_i q om p m1 m2 beta]
  simp only [thermal.d_i_m_m_l_i, r_0_eq, r_0_same_mass_eq, tlog_eq, tlog_same_mass_eq, tlog_zero_mass_eq, tlog_l_eq, tlog_l_same_mass_eq, tlog_l_zero_mass_eq, tlog_t_eq, tlog_t_same_mass_eq, tlog_t_zero_mass_eq, zm_r_0_eq, zm_r_0_same_mass_eq, z0_r_0_C, z0_r_0_eq, z0_tlog_eq, z0_tlog_t_eq, toC_complex, toC_real, ofR_complex, ofR_real, toC_ofR, toC_zero, toC_energy, toC_bose, map_mul, map_add, map_neg, map_sub, map_inv₀, map_div₀, map_zpow₀, energy_scale_real hL, fermi_double_scale hL, fermi_double_zero_temp_scale hL]
  try push_cast
  try simp only [z0_r_0_R, z0_tlog_same_mass_eq, z0_tlog_zero_mass_eq, z0_tlog_t_same_mass_eq, z0_tlog_t_zero_mass_eq, ofReal_energy, ofReal_bose, Complex.ofReal_mul, Complex.ofReal_neg]
  have hm : ∀ a b : ℂ, (L : ℂ) * a * (L * b) = L * L * (a * b) := fun a b => by ring
  have hs : ∀ a b : ℂ, (L : ℂ) * L * a - L * L * b = L * L * (a - b) := fun a b => by ring
  try simp only [energy_scale hL, bose_scale hL, hm, hs, ← mul_neg, neg_neg]
  try simp only [energy_scale hL, bose_scale hL, hm, hs, TL_scale hL0, TL_scale_zero hL0, R0_scale, R0_scale_zero, R0_scale_pz, R0_scale_pz_zero, PF_scale hL0, PF_scale_zero hL0, ZL_scale hL0, ZL_scale_zero hL0]
  field_simp
  try ring

theorem scale_thermal_d_i_m_m_l_i_same_mass {L : ℝ} (hL : 0 < L) (q : ℝ) (om : T1) (p : T2) (m : T3) (beta : ℝ) :
    thermal.d_i_m_m_l_i_same_mass (L * q) (ofR L * om) (ofR L * p) (ofR L * m) (beta / L) = (L : ℂ) ^ (-1 : ℤ) * thermal.d_i_m_m_l_i_same_mass q om p m beta := by
  have hL0 : (L : ℂ) ≠ 0 := Complex.ofReal_ne_zero.2 hL.ne'
  rw [toC_thermal_d_i_m_m_l_i_same_mass (L * q) (ofR L * om) (ofR L * p) (ofR L * m) (beta / L), toC_thermal_d_i_m_m_l_i_same_mass q om p m beta]
  simp only [thermal.d_i_m_m_l_i_same_mass, r_0_eq, r_0_same_mass_eq, tlog_eq, tlog_same_mass_eq, tlog_zero_mass_eq, tlog_l_eq, tlog_l_same_mass_eq, tlog_l_zero_mass_eq, tlog_t_eq, tlog_t_same_mass_eq, tlog_t_zero_mass_eq, zm_r_0_eq, zm_r_0_same_mass_eq, z0_r_0_C, z0_r_0_eq, z0_tlog_eq, z0_tlog_t_eq, toC_complex, toC_real, ofR_complex, ofR_real, toC_ofR, toC_zero, toC_energy, toC_bose, map_mul, map_add, map_neg, map_sub, map_inv₀, map_div₀, map_zpow₀, energy_scale_real hL, fermi_double_scale hL, fermi_double_zero_temp_scale hL]
  try push_cast
  try simp only [z0_r_0_R, z0_tlog_same_mass_eq, z0_tlog_zero_mass_eq, z0_tlog_t_same_mass_eq, z0_tlog_t_zero_mass_eq, ofReal_energy, ofReal_bose, Complex.ofReal_mul, Complex.ofReal_neg]
  have hm : ∀ a b : ℂ, (L : ℂ) * a * (L * b) = L * L * (a * b) := fun a b => by ring
  have hs : ∀ a b : ℂ, (L : ℂ) * L * a - L * L * b = L * L * (a - b) := fun a b => by ring
  try simp only [energy_scale hL, bose_scale hL, hm, hs, ← mul_neg, neg_neg]
  try simp only [energy_scale hL, bose_scale hL, hm, hs, TL_scale hL0, TL_scale_zero hL0, R0_scale, R0_scale_zero, R0_scale_pz, R0_scale_pz_zero, PF_scale hL0, PF_scale_zero hL0, ZL_scale hL0, ZL_scale_zero hL0]
  field_simp
  try ring

theorem scale_thermal_d_i_m_0_l_i {L : ℝ} (hL : 0 < L) (q : ℝ) (om : T1) (p : T2) (m : T3) (beta : ℝ) :
    thermal.d_i_m_0_l_i (L * q) (ofR L * om) (ofR L * p) (ofR L * m) (beta / L) = (L : ℂ) ^ (-1 : ℤ) * thermal.d_i_m_0_l_i q om p m beta := by
  have hL0 : (L : ℂ) ≠ 0 := Complex.ofReal_ne_zero.2 hL.ne'
  rw [toC_thermal_d_i_m_0_l_i (L * q) (ofR L * om) (ofR L * p) (ofR L * m) (beta / L), toC_thermal_d_i_m_0_l_i q om p m beta]
  simp only [thermal.d_i_m_0_l_i, r_0_eq, r_0_same_mass_eq, tlog_eq, tlog_same_mass_eq, tlog_zero_mass_eq, tlog_l_eq, tlog_l_same_mass_eq, tlog_l_zero_mass_eq, tlog_t_eq, tlog_t_same_mass_eq, tlog_t_zero_mass_eq, zm_r_0_eq, zm_r_0_same_mass_eq, z0_r_0_C, z0_r_0_eq, z0_tlog_eq, z0_tlog_t_eq, toC_complex, toC_real, ofR_complex, ofR_real, toC_ofR, toC_zero, toC_energy, toC_bose, map_mul, map_add, map_neg, map_sub, map_inv₀, map_div₀, map_zpow₀, energy_scale_real hL, fermi_double_scale hL, fermi_double_zero_temp_scale hL]
  try push_cast
  try simp only [z0_r_0_R, z0_tlog_same_mass_eq, z0_tlog_zero_mass_eq, z0_tlog_t_same_mass_eq, z0_tlog_t_zero_mass_eq, ofReal_energy, ofReal_bose, Complex.ofReal_mul, Complex.ofReal_neg]
  have hm : ∀ a b : ℂ, (L : ℂ) * a * (L * b) = L * L * (a * b) := fun a b => by ring
  have hs : ∀ a b : ℂ, (L : ℂ) * L * a - L * L * b = L * L * (a - b) := fun a b => by ring
  try simp only [energy_scale hL, bose_scale hL, hm, hs, ← mul_neg, neg_neg]
  try simp only [energy_scale hL, bose_scale hL, hm, hs, TL_scale hL0, TL_scale_zero hL0, R0_scale, R0_scale_zero, R0_scale_pz, R0_scale_pz_zero, PF_scale hL0, PF_scale_zero hL0, ZL_scale hL0, ZL_scale_zero hL0]
  field_simp
  try ring

theorem scale_thermal_d_i_0_0_l_i {L : ℝ} (hL : 0 < L) (q : ℝ) (om : T) (p : ℝ) (beta : ℝ) :
    thermal.d_i_0_0_l_i (L * q) (ofR L * om) (L * p) (beta / L) = (L : ℂ) ^ (-1 : ℤ) * thermal.d_i_0_0_l_i q om p beta := by
  have hL0 : (L : ℂ) ≠ 0 := Complex.ofReal_ne_zero.2 hL.ne'
  rw [toC_thermal_d_i_0_0_l_i (L * q) (ofR L * om) (L * p) (beta / L), toC_thermal_d_i_0_0_l_i q om p beta]
  simp only [thermal.d_i_0_0_l_i, r_0_eq, r_0_same_mass_eq, tlog_eq, tlog_same_mass_eq, tlog_zero_mass_eq, tlog_l_eq, tlog_l_same_mass_eq, tlog_l_zero_mass_eq, tlog_t_eq, tlog_t_same_mass_eq, tlog_t_zero_mass_eq, zm_r_0_eq, zm_r_0_same_mass_eq, z0_r_0_C, z0_r_0_eq, z0_tlog_eq, z0_tlog_t_eq, toC_complex, toC_real, ofR_complex, ofR_real, toC_ofR, toC_zero, toC_energy, toC_bose, map_mul, map_add, map_neg, map_sub, map_inv₀, map_div₀, map_zpow₀, energy_scale_real hL, fermi_double_scale hL, fermi_double_zero_temp_scale hL]
  try push_cast
  try simp only [z0_r_0_R, z0_tlog_same_mass_eq, z0_tlog_zero_mass_eq, z0_tlog_t_same_mass_eq, z0_tlog_t_zero_mass_eq, ofReal_energy, ofReal_bose, Complex.ofReal_mul, Complex.ofReal_neg]
  have hm : ∀ a b : ℂ, (L : ℂ) * a * (L * b) = L * L * (a * b) := fun a b => by ring
  have hs : ∀ a b : ℂ, (L : ℂ) * L * a - L * L * b = L * L * (a - b) := fun a b => by ring
  try simp only [energy_scale hL, bose_scale hL, hm, hs, ← mul_neg, neg_neg]
  try simp only [energy_scale hL, bose_scale hL, hm, hs, TL_scale hL0, TL_scale_zero hL0, R0_scale, R0_scale_zero, R0_scale_pz, R0_scale_pz_zero, PF_scale hL0, PF_scale_zero hL0, ZL_scale hL0, ZL_scale_zero hL0]
  field_simp
  try ring

theorem scale_thermal_d_i_m_m_t_i {L : ℝ} (hL : 0 < L) (q : ℝ) (om : T1) (p : ℝ) (m1 : T2) (m2 : T3) (beta : ℝ) :
    thermal.d_i_m_m_t_i (L * q) (ofR L * om) (L * p) (ofR L * m1) (ofR L * m2) (beta / L) = (L : ℂ) ^ (-1 : ℤ) * thermal.d_i_m_m_t_i q om p m1 m2 beta := by
  have hL0 : (L : ℂ) ≠ 0 := Complex.ofReal_ne_zero.2 hL.ne'
  rw [toC_thermal_d_i_m_m_t_i (L * q) (ofR L * om) (L * p) (ofR L * m1) (ofR L * m2) (beta / L), toC_thermal_d_i_m_m_t_i q om p m1 m2 beta]
  simp only [thermal.d_i_m_m_t_i, r_0_eq, r_0_same_mass_eq, tlog_eq, tlog_same_mass_eq, tlog_zero_mass_eq, tlog_l_eq, tlog_l_same_mass_eq, tlog_l_zero_mass_eq, tlog_t_eq, tlog_t_same_mass_eq, tlog_t_zero_mass_eq, zm_r_0_eq, zm_r_0_same_mass_eq, z0_r_0_C, z0_r_0_eq, z0_tlog_eq, z0_tlog_t_eq, toC_complex, toC_real, ofR_complex, ofR_real, toC_ofR, toC_zero, toC_energy, toC_bose, map_mul, map_add, map_neg, map_sub, map_inv₀, map_div₀, map_zpow₀, energy_scale_real hL, fermi_double_scale hL, fermi_double_zero_temp_scale hL]
  try push_cast
  try simp only [z0_r_0_R, z0_tlog_same_mass_eq, z0_tlog_zero_mass_eq, z0_tlog_t_same_mass_eq, z0_tlog_t_zero_mass_eq, ofReal_energy, ofReal_bose, Complex.ofReal_mul, Complex.ofReal_neg]
  have hm : ∀ a b : ℂ, (L : ℂ) * a * (L * b) = L * L * (a * b) := fun a b => by ring
  have hs : ∀ a b : ℂ, (L : ℂ) * L * a - L * L * b = L * L * (a - b) := fun a b => by ring
  try simp only [energy_scale hL, bose_scale hL, hm, hs, ← mul_neg, neg_neg]
  try simp only [energy_scale hL, bose_scale hL, hm, hs, TL_scale hL0, TL_scale_zero hL0, R0_scale, R0_scale_zero, R0_scale_pz, R0_scale_pz_zero, PF_scale hL0, PF_scale_zero hL0, ZL_scale hL0, ZL_scale_zero hL0]
  field_simp
  try ring

theorem scale_thermal_d_i_m_m_t_i_same_mass {L : ℝ} (hL : 0 < L) (q : ℝ) (om : T1) (p : ℝ) (m : T2) (beta : ℝ) :
    thermal.d_i_m_m_t_i_same_mass (L * q) (ofR L * om) (L * p) (ofR L * m) (beta / L) = (L : ℂ) ^ (-1 : ℤ) * thermal.d_i_m_m_t_i_same_mass q om p m beta := by
  have hL0 : (L : ℂ) ≠ 0 := Complex.ofReal_ne_zero.2 hL.ne'
  rw [toC_thermal_d_i_m_m_t_i_same_mass (L * q) (ofR L * om) (L * p) (ofR L * m) (beta / L), toC_thermal_d_i_m_m_t_i_same_mass q om p m beta]
  simp only [thermal.d_i_m_m_t_i_same_mass, r_0_eq, r_0_same_mass_eq, tlog_eq, tlog_same_mass_eq, tlog_zero_mass_eq, tlog_l_eq, tlog_l_same_mass_eq, tlog_l_zero_mass_eq, tlog_t_eq, tlog_t_same_mass_eq, tlog_t_zero_mass_eq, zm_r_0_eq, zm_r_0_same_mass_eq, z0_r_0_C, z0_r_0_eq, z0_tlog_eq, z0_tlog_t_eq, toC_complex, toC_real, ofR_complex, ofR_real, toC_ofR, toC_zero, toC_energy, toC_bose, map_mul, map_add, map_neg, map_sub, map_inv₀, map_div₀, map_zpow₀, energy_scale_real hL, fermi_double_scale hL, fermi_double_zero_temp_scale hL]
  try push_cast
  try simp only [z0_r_0_R, z0_tlog_same_mass_eq, z0_tlog_zero_mass_eq, z0_tlog_t_same_mass_eq, z0_tlog_t_zero_mass_eq, ofReal_energy, ofReal_bose, Complex.ofReal_mul, Complex.ofReal_neg]
  have hm : ∀ a b : ℂ, (L : ℂ) * a * (L * b) = L * L * (a * b) := fun a b => by ring
  have hs : ∀ a b : ℂ, (L : ℂ) * L * a - L * L * b = L * L * (a - b) := fun a b => by ring
  try simp only [energy_scale hL, bose_scale hL, hm, hs, ← mul_neg, neg_neg]
  try simp only [energy_scale hL, bose_scale hL, hm, hs, TL_scale hL0, TL_scale_zero hL0, R0_scale, R0_scale_zero, R0_scale_pz, R0_scale_pz_zero, PF_scale hL0, PF_scale_zero hL0, ZL_scale hL0, ZL_scale_zero hL0]
  field_simp
  try ring

theorem scale_thermal_d_i_m_0_t_i {L : ℝ} (hL : 0 < L) (q : ℝ) (om : T1) (p : ℝ) (m : T2) (beta : ℝ) :
    thermal.d_i_m_0_t_i (L * q) (ofR L * om) (L * p) (ofR L * m) (beta / L) = (L : ℂ) ^ (-1 : ℤ) * thermal.d_i_m_0_t_i q om p m beta := by
  have hL0 : (L : ℂ) ≠ 0 := Complex.ofReal_ne_zero.2 hL.ne'
  rw [toC_thermal_d_i_m_0_t_i (L * q) (ofR L * om) (L * p) (ofR L * m) (beta / L), toC_thermal_d_i_m_0_t_i q om p m beta]
  simp only [thermal.d_i_m_0_t_i, r_0_eq, r_0_same_mass_eq, tlog_eq, tlog_same_mass_eq, tlog_zero_mass_eq, tlog_l_eq, tlog_l_same_mass_eq, tlog_l_zero_mass_eq, tlog_t_eq, tlog_t_same_mass_eq, tlog_t_zero_mass_eq, zm_r_0_eq, zm_r_0_same_mass_eq, z0_r_0_C, z0_r_0_eq, z0_tlog_eq, z0_tlog_t_eq, toC_complex, toC_real, ofR_complex, ofR_real, toC_ofR, toC_zero, toC_energy, toC_bose, map_mul, map_add, map_neg, map_sub, map_inv₀, map_div₀, map_zpow₀, energy_scale_real hL, fermi_double_scale hL, fermi_double_zero_temp_scale hL]
  try push_cast
  try simp only [z0_r_0_R, z0_tlog_same_mass_eq, z0_tlog_zero_mass_eq, z0_tlog_t_same_mass_eq, z0_tlog_t_zero_mass_eq, ofReal_energy, ofReal_bose, Complex.ofReal_mul, Complex.ofReal_neg]
  have hm : ∀ a b : ℂ, (L : ℂ) * a * (L * b) = L * L * (a * b) := fun a b => by ring
  have hs : ∀ a b : ℂ, (L : ℂ) * L * a - L * L * b = L * L * (a - b) := fun a b => by ring
  try simp only [energy_scale hL, bose_scale hL, hm, hs, ← mul_neg, neg_neg]
  try simp only [energy_scale hL, bose_scale hL, hm, hs, TL_scale hL0, TL_scale_zero hL0, R0_scale, R0_scale_zero, R0_scale_pz, R0_scale_pz_zero, PF_scale hL0, PF_scale_zero hL0, ZL_scale hL0, ZL_scale_zero hL0]
  field_simp
  try ring

theorem scale_thermal_d_i_0_0_t_i {L : ℝ} (hL : 0 < L) (q : ℝ) (om : T) (p : ℝ) (beta : ℝ) :
    thermal.d_i_0_0_t_i (L * q) (ofR L * om) (L * p) (beta / L) = (L : ℂ) ^ (-1 : ℤ) * thermal.d_i_0_0_t_i q om p beta := by
  have hL0 : (L : ℂ) ≠ 0 := Complex.ofReal_ne_zero.2 hL.ne'
  rw [toC_thermal_d_i_0_0_t_i (L * q) (ofR L * om) (L * p) (beta / L), toC_thermal_d_i_0_0_t_i q om p beta]
  simp only [thermal.d_i_0_0_t_i, r_0_eq, r_0_same_mass_eq, tlog_eq, tlog_same_mass_eq, tlog_zero_mass_eq, tlog_l_eq, tlog_l_same_mass_eq, tlog_l_zero_mass_eq, tlog_t_eq, tlog_t_same_mass_eq, tlog_t_zero_mass_eq, zm_r_0_eq, zm_r_0_same_mass_eq, z0_r_0_C, z0_r_0_eq, z0_tlog_eq, z0_tlog_t_eq, toC_complex, toC_real, ofR_complex, ofR_real, toC_ofR, toC_zero, toC_energy, toC_bose, map_mul, map_add, map_neg, map_sub, map_inv₀, map_div₀, map_zpow₀, energy_scale_real hL, fermi_double_scale hL, fermi_double_zero_temp_scale hL]
  try push_cast
  try simp only [z0_r_0_R, z0_tlog_same_mass_eq, z0_tlog_zero_mass_eq, z0_tlog_t_same_mass_eq, z0_tlog_t_zero_mass_eq, ofReal_energy, ofReal_bose, Complex.ofReal_mul, Complex.ofReal_neg]
  have hm : ∀ a b : ℂ, (L : ℂ) * a * (L * b) = L * L * (a * b) := fun a b => by ring
  have hs : ∀ a b : ℂ, (L : ℂ) * L * a - L * L * b = L * L * (a - b) := fun a b => by ring
  try simp only [energy_scale hL, bose_scale hL, hm, hs, ← mul_neg, neg_neg]
  try simp only [energy_scale hL, bose_scale hL, hm, hs, TL_scale hL0, TL_scale_zero hL0, R0_scale, R0_scale_zero, R0_scale_pz, R0_scale_pz_zero, PF_scale hL0, PF_scale_zero hL0, ZL_scale hL0, ZL_scale_zero hL0]
  field_simp
  try ring

theorem scale_thermal_zero_momentum_i_m_m_i {L : ℝ} (hL : 0 < L) (q : ℝ) (om : T1) (m1 : T2) (m2 : T3) (beta : ℝ) :
    thermal.zero_momentum.i_m_m_i (L * q) (ofR L * om) (ofR L * m1) (ofR L * m2) (beta / L) = (L : ℂ) ^ (-1 : ℤ) * thermal.zero_momentum.i_m_m_i q om m1 m2 beta := by
  have hL0 : (L : ℂ) ≠ 0 := Complex.ofReal_ne_zero.2 hL.ne'
  rw [toC_thermal_zero_momentum_i_m_m_i (L * q) (ofR L * om) (ofR L * m1) (ofR L * m2) (beta / L), toC_thermal_zero_momentum_i_m_m_i q om m1 m2 beta]
  simp only [thermal.zero_momentum.i_m_m_i, r_0_eq, r_0_same_mass_eq, tlog_eq, tlog_same_mass_eq, tlog_zero_mass_eq, tlog_l_eq, tlog_l_same_mass_eq, tlog_l_zero_mass_eq, tlog_t_eq, tlog_t_same_mass_eq, tlog_t_zero_mass_eq, zm_r_0_eq, zm_r_0_same_mass_eq, z0_r_0_C, z0_r_0_eq, z0_tlog_eq, z0_tlog_t_eq, toC_complex, toC_real, ofR_complex, ofR_real, toC_ofR, toC_zero, toC_energy, toC_bose, map_mul, map_add, map_neg, map_sub, map_inv₀, map_div₀, map_zpow₀, energy_scale_real hL, fermi_double_scale hL, fermi_double_zero_temp_scale hL]
  try push_cast
  try simp only [z0_r_0_R, z0_tlog_same_mass_eq, z0_tlog_zero_mass_eq, z0_tlog_t_same_mass_eq, z0_tlog_t_zero_mass_eq, ofReal_energy, ofReal_bose, Complex.ofReal_mul, Complex.ofReal_neg]
  have hm : ∀ a b : ℂ, (L : ℂ) * a * (L * b) = L * L * (a * b) := fun a b => by ring
  have hs : ∀ a b : ℂ, (L : ℂ) * L * a - L * L * b = L * L * (a - b) := fun a b => by ring
  try simp only [energy_scale hL, bose_scale hL, hm, hs, ← mul_neg, neg_neg]
  try simp only [energy_scale hL, bose_scale hL, hm, hs, TL_scale hL0, TL_scale_zero hL0, R0_scale, R0_scale_zero, R0_scale_pz, R0_scale_pz_zero, PF_scale hL0, PF_scale_zero hL0, ZL_scale hL0, ZL_scale_zero hL0]
  field_simp
  try ring

theorem scale_thermal_zero_momentum_i_m_m_i_same_mass {L : ℝ} (hL : 0 < L) (q : ℝ) (om : T1) (m : T2) (beta : ℝ) :
    thermal.zero_momentum.i_m_m_i_same_mass (L * q) (ofR L * om) (ofR L * m) (beta / L) = (L : ℂ) ^ (-1 : ℤ) * thermal.zero_momentum.i_m_m_i_same_mass q om m beta := by
  have hL0 : (L : ℂ) ≠ 0 := Complex.ofReal_ne_zero.2 hL.ne'
  rw [toC_thermal_zero_momentum_i_m_m_i_same_mass (L * q) (ofR L * om) (ofR L * m) (beta / L), toC_thermal_zero_momentum_i_m_m_i_same_mass q om m beta]
  simp only [thermal.zero_momentum.i_m_m_i_same_mass, r_0_eq, r_0_same_mass_eq, tlog_eq, tlog_same_mass_eq, tlog_zero_mass_eq, tlog_l_eq, tlog_l_same_mass_eq, tlog_l_zero_mass_eq, tlog_t_eq, tlog_t_same_mass_eq, tlog_t_zero_mass_eq, zm_r_0_eq, zm_r_0_same_mass_eq, z0_r_0_C, z0_r_0_eq, z0_tlog_eq, z0_tlog_t_eq, toC_complex, toC_real, ofR_complex, ofR_real, toC_ofR, toC_zero, toC_energy, toC_bose, map_mul, map_add, map_neg, map_sub, map_inv₀, map_div₀, map_zpow₀, energy_scale_real hL, fermi_double_scale hL, fermi_double_zero_temp_scale hL]
  try push_cast
  try simp only [z0_r_0_R, z0_tlog_same_mass_eq, z0_tlog_zero_mass_eq, z0_tlog_t_same_mass_eq, z0_tlog_t_zero_mass_eq, ofReal_energy, ofReal_bose, Complex.ofReal_mul, Complex.ofReal_neg]
  have hm : ∀ a b : ℂ, (L : ℂ) * a * (L * b) = L * L * (a * b) := fun a b => by ring
  have hs : ∀ a b : ℂ, (L : ℂ) * L * a - L * L * b = L * L * (a - b) := fun a b => by ring
  try simp only [energy_scale hL, bose_scale hL, hm, hs, ← mul_neg, neg_neg]
  try simp only [energy_scale hL, bose_scale hL, hm, hs, TL_scale hL0, TL_scale_zero hL0, R0_scale, R0_scale_zero, R0_scale_pz, R0_scale_pz_zero, PF_scale hL0, PF_scale_zero hL0, ZL_scale hL0, ZL_scale_zero hL0]
  field_simp
  try ring

theorem scale_thermal_zero_momentum_i_m_0_i {L : ℝ} (hL : 0 < L) (q : ℝ) (om : T1) (m : T2) (beta : ℝ) :
    thermal.zero_momentum.i_m_0_i (L * q) (ofR L * om) (ofR L * m) (beta / L) = (L : ℂ) ^ (-1 : ℤ) * thermal.zero_momentum.i_m_0_i q om m beta := by
  have hL0 : (L : ℂ) ≠ 0 := Complex.ofReal_ne_zero.2 hL.ne'
  rw [toC_thermal_zero_momentum_i_m_0_i (L * q) (ofR L * om) (ofR L * m) (beta / L), toC_thermal_zero_momentum_i_m_0_i q om m beta]
  simp only [thermal.zero_momentum.i_m_0_i, r_0_eq, r_0_same_mass_eq, tlog_eq, tlog_same_mass_eq, tlog_zero_mass_eq, tlog_l_eq, tlog_l_same_mass_eq, tlog_l_zero_mass_eq, tlog_t_eq, tlog_t_same_mass_eq, tlog_t_zero_mass_eq, zm_r_0_eq, zm_r_0_same_mass_eq, z0_r_0_C, z0_r_0_eq, z0_tlog_eq, z0_tlog_t_eq, toC_complex, toC_real, ofR_complex, ofR_real, toC_ofR, toC_zero, toC_energy, toC_bose, map_mul, map_add, map_neg, map_sub, map_inv₀, map_div₀, map_zpow₀, energy_scale_real hL, fermi_double_scale hL, fermi_double_zero_temp_scale hL]
  try push_cast
  try simp only [z0_r_0_R, z0_tlog_same_mass_eq, z0_tlog_zero_mass_eq, z0_tlog_t_same_mass_eq, z0_tlog_t_zero_mass_eq, ofReal_energy, ofReal_bose, Complex.ofReal_mul, Complex.ofReal_neg]
  have hm : ∀ a b : ℂ, (L : ℂ) * a * (L * b) = L * L * (a * b) := fun a b => by ring
  have hs : ∀ a b : ℂ, (L : ℂ) * L * a - L * L * b = L * L * (a - b) := fun a b => by ring
  try simp only [energy_scale hL, bose_scale hL, hm, hs, ← mul_neg, neg_neg]
  try simp only [energy_scale hL, bose_scale hL, hm, hs, TL_scale hL0, TL_scale_zero hL0, R0_scale, R0_scale_zero, R0_scale_pz, R0_scale_pz_zero, PF_scale hL0, PF_scale_zero hL0, ZL_scale hL0, ZL_scale_zero hL0]
  field_simp
  try ring

theorem scale_thermal_zero_momentum_i_0_0_i {L : ℝ} (hL : 0 < L) (q : ℝ) (om : T) (beta : ℝ) :
    thermal.zero_momentum.i_0_0_i (L * q) (ofR L * om) (beta / L) = (L : ℂ) ^ (-1 : ℤ) * thermal.zero_momentum.i_0_0_i q om beta := by
  have hL0 : (L : ℂ) ≠ 0 := Complex.ofReal_ne_zero.2 hL.ne'
  rw [toC_thermal_zero_momentum_i_0_0_i (L * q) (ofR L * om) (beta / L), toC_thermal_zero_momentum_i_0_0_i q om beta]
  simp only [thermal.zero_momentum.i_0_0_i, r_0_eq, r_0_same_mass_eq, tlog_eq, tlog_same_mass_eq, tlog_zero_mass_eq, tlog_l_eq, tlog_l_same_mass_eq, tlog_l_zero_mass_eq, tlog_t_eq, tlog_t_same_mass_eq, tlog_t_zero_mass_eq, zm_r_0_eq, zm_r_0_same_mass_eq, z0_r_0_C, z0_r_0_eq, z0_tlog_eq, z0_tlog_t_eq, toC_complex, toC_real, ofR_complex, ofR_real, toC_ofR, toC_zero, toC_energy, toC_bose, map_mul, map_add, map_neg, map_sub, map_inv₀, map_div₀, map_zpow₀, energy_scale_real hL, fermi_double_scale hL, fermi_double_zero_temp_scale hL]
  try push_cast
  try simp only [z0_r_0_R, z0_tlog_same_mass_eq, z0_tlog_zero_mass_eq, z0_tlog_t_same_mass_eq, z0_tlog_t_zero_mass_eq, ofReal_energy, ofReal_bose, Complex.ofReal_mul, Complex.ofReal_neg]
  have hm : ∀ a b : ℂ, (L : ℂ) * a * (L * b) = L * L * (a * b) := fun a b => by ring
  have hs : ∀ a b : ℂ, (L : ℂ) * L * a - L * L * b = L * L * (a - b) := fun a b => by ring
  try simp only [energy_scale hL, bose_scale hL, hm, hs, ← mul_neg, neg_neg]
  try simp only [energy_scale hL, bose_scale hL, hm, hs, TL_scale hL0, TL_scale_zero hL0, R0_scale, R0_scale_zero, R0_scale_pz, R0_scale_pz_zero, PF_scale hL0, PF_scale_zero hL0, ZL_scale hL0, ZL_scale_zero hL0]
  field_simp
  try ring

theorem scale_thermal_zero_momentum_i_m_m_l_i {L : ℝ} (hL : 0 < L) (q : ℝ) (om : T1) (m1 : T2) (m2 : T3) (beta : ℝ) :
    thermal.zero_momentum.i_m_m_l_i (L * q) (ofR L * om) (ofR L * m1) (ofR L * m2) (beta / L) = (L : ℂ) ^ (1 : ℤ) * thermal.zero_momentum.i_m_m_l_i q om m1 m2 beta := by
  have hL0 : (L : ℂ) ≠ 0 := Complex.ofReal_ne_zero.2 hL.ne'
  rw [toC_thermal_zero_momentum_i_m_m_l_i (L * q) (ofR L * om) (ofR L * m1) (ofR L * m2) (beta / L), toC_thermal_zero_momentum_i_m_m_l_i q om m1 m2 beta]
  simp only [thermal.zero_momentum.i_m_m_l_i, r_0_eq, r_0_same_mass_eq, tlog_eq, tlog_same_mass_eq, tlog_zero_mass_eq, tlog_l_eq, tlog_l_same_mass_eq, tlog_l_zero_mass_eq, tlog_t_eq, tlog_t_same_mass_eq, tlog_t_zero_mass_eq, zm_r_0_eq, zm_r_0_same_mass_eq, z0_r_0_C, z0_r_0_eq, z0_tlog_eq, z0_tlog_t_eq, toC_complex, toC_real, ofR_complex, ofR_real, toC_ofR, toC_zero, toC_energy, toC_bose, map_mul, map_add, map_neg, map_sub, map_inv₀, map_div₀, map_zpow₀, energy_scale_real hL, fermi_double_scale hL, fermi_double_zero_temp_scale hL]
  try push_cast
  try simp only [z0_r_0_R, z0_tlog_same_mass_eq, z0_tlog_zero_mass_eq, z0_tlog_t_same_mass_eq, z0_tlog_t_zero_mass_eq, ofReal_energy, ofReal_bose, Complex.ofReal_mul, Complex.ofReal_neg]
  have hm : ∀ a b : ℂ, (L : ℂ) * a * (L * b) = L * L * (a * b) := fun a b => by ring
  have hs : ∀ a b : ℂ, (L : ℂ) * L * a - L * L * b = L * L * (a - b) := fun a b => by ring
  try simp only [energy_scale hL, bose_scale hL, hm, hs, ← mul_neg, neg_neg]
  try simp only [energy_scale hL, bose_scale hL, hm, hs, TL_scale hL0, TL_scale_zero hL0, R0_scale, R0_scale_zero, R0_scale_pz, R0_scale_pz_zero, PF_scale hL0, PF_scale_zero hL0, ZL_scale hL0, ZL_scale_zero hL0]
  field_simp
  try ring

theorem scale_thermal_zero_momentum_i_m_m_l_i_same_mass {L : ℝ} (hL : 0 < L) (q : ℝ) (om : T1) (m : T2) (beta : ℝ) :
    thermal.zero_momentum.i_m_m_l_i_same_mass (L * q) (ofR L * om) (ofR L * m) (beta / L) = (L : ℂ) ^ (1 : ℤ) * thermal.zero_momentum.i_m_m_l_i_same_mass q om m beta := by
  have hL0 : (L : ℂ) ≠ 0 := Complex.ofReal_ne_zero.2 hL.ne'
  rw [toC_thermal_zero_momentum_i_m_m_l_i_same_mass (L * q) (ofR L * om) (ofR L * m) (beta / L), toC_thermal_zero_momentum_i_m_m_l_i_same_mass q om m beta]
  simp only [thermal.zero_momentum.i_m_m_l_i_same_mass, r_0_eq, r_0_same_mass_eq, tlog_eq, tlog_same_mass_eq, tlog_zero_mass_eq, tlog_l_eq, tlog_l_same_mass_eq, tlog_l_zero_mass_eq, tlog_t_eq, tlog_t_same_mass_eq, tlog_t_zero_mass_eq, zm_r_0_eq, zm_r_0_same_mass_eq, z0_r_0_C, z0_r_0_eq, z0_tlog_eq, z0_tlog_t_eq, toC_complex, toC_real, ofR_complex, ofR_real, toC_ofR, toC_zero, toC_energy, toC_bose, map_mul, map_add, map_neg, map_sub, map_inv₀, map_div₀, map_zpow₀, energy_scale_real hL, fermi_double_scale hL, fermi_double_zero_temp_scale hL]
  try push_cast
  try simp only [z0_r_0_R, z0_tlog_same_mass_eq, z0_tlog_zero_mass_eq, z0_tlog_t_same_mass_eq, z0_tlog_t_zero_mass_eq, ofReal_energy, ofReal_bose, Complex.ofReal_mul, Complex.ofReal_neg]
  have hm : ∀ a b : ℂ, (L : ℂ) * a * (L * b) = L * L * (a * b) := fun a b => by ring
  have hs : ∀ a b : ℂ, (L : ℂ) * L * a - L * L * b = L * L * (a - b) := fun a b => by ring
  try simp only [energy_scale hL, bose_scale hL, hm, hs, ← mul_neg, neg_neg]
  try simp only [energy_scale hL, bose_scale hL, hm, hs, TL_scale hL0, TL_scale_zero hL0, R0_scale, R0_scale_zero, R0_scale_pz, R0_scale_pz_zero, PF_scale hL0, PF_scale_zero hL0, ZL_scale hL0, ZL_scale_zero hL0]
  field_simp
  try ring

theorem scale_thermal_zero_momentum_i_m_0_l_i {L : ℝ} (hL : 0 < L) (q : ℝ) (om : T1) (m : T2) (beta : ℝ) :
    thermal.zero_momentum.i_m_0_l_i (L * q) (ofR L * om) (ofR L * m) (beta / L) = (L : ℂ) ^ (1 : ℤ) * thermal.zero_momentum.i_m_0_l_i q om m beta := by
  have hL0 : (L : ℂ) ≠ 0 := Complex.ofReal_ne_zero.2 hL.ne'
  rw [toC_thermal_zero_momentum_i_m_0_l_i (L * q) (ofR L * om) (ofR L * m) (beta / L), toC_thermal_zero_momentum_i_m_0_l_i q om m beta]
  simp only [thermal.zero_momentum.i_m_0_l_i, r_0_eq, r_0_same_mass_eq, tlog_eq, tlog_same_mass_eq, tlog_zero_mass_eq, tlog_l_eq, tlog_l_same_mass_eq, tlog_l_zero_mass_eq, tlog_t_eq, tlog_t_same_mass_eq, tlog_t_zero_mass_eq, zm_r_0_eq, zm_r_0_same_mass_eq, z0_r_0_C, z0_r_0_eq, z0_tlog_eq, z0_tlog_t_eq, toC_complex, toC_real, ofR_complex, ofR_real, toC_ofR, toC_zero, toC_energy, toC_bose, map_mul, map_add, map_neg, map_sub, map_inv₀, map_div₀, map_zpow₀, energy_scale_real hL, fermi_double_scale hL, fermi_double_zero_temp_scale hL]
  try push_cast
  try simp only [z0_r_0_R, z0_tlog_same_mass_eq, z0_tlog_zero_mass_eq, z0_tlog_t_same_mass_eq, z0_tlog_t_zero_mass_eq, ofReal_energy, ofReal_bose, Complex.ofReal_mul, Complex.ofReal_neg]
  have hm : ∀ a b : ℂ, (L : ℂ) * a * (L * b) = L * L * (a * b) := fun a b => by ring
  have hs : ∀ a b : ℂ, (L : ℂ) * L * a - L * L * b = L * L * (a - b) := fun a b => by ring
  try simp only [energy_scale hL, bose_scale hL, hm, hs, ← mul_neg, neg_neg]
  try simp only [energy_scale hL, bose_scale hL, hm, hs, TL_scale hL0, TL_scale_zero hL0, R0_scale, R0_scale_zero, R0_scale_pz, R0_scale_pz_zero, PF_scale hL0, PF_scale_zero hL0, ZL_scale hL0, ZL_scale_zero hL0]
  field_simp
  try ring

theorem scale_thermal_zero_momentum_i_0_0_l_i {L : ℝ} (hL : 0 < L) (q : ℝ) (om : T) (beta : ℝ) :
    thermal.zero_momentum.i_0_0_l_i (L * q) (ofR L * om) (beta / L) = (L : ℂ) ^ (1 : ℤ) * thermal.zero_momentum.i_0_0_l_i q om beta := by
  have hL0 : (L : ℂ) ≠ 0 := Complex.ofReal_ne_zero.2 hL.ne'
  rw [toC_thermal_zero_momentum_i_0_0_l_i (L * q) (ofR L * om) (beta / L), toC_thermal_zero_momentum_i_0_0_l_i q om beta]
  simp only [thermal.zero_momentum.i_0_0_l_i, r_0_eq, r_0_same_mass_eq, tlog_eq, tlog_same_mass_eq, tlog_zero_mass_eq, tlog_l_eq, tlog_l_same_mass_eq, tlog_l_zero_mass_eq, tlog_t_eq, tlog_t_same_mass_eq, tlog_t_zero_mass_eq, zm_r_0_eq, zm_r_0_same_mass_eq, z0_r_0_C, z0_r_0_eq, z0_tlog_eq, z0_tlog_t_eq, toC_complex, toC_real, ofR_complex, ofR_real, toC_ofR, toC_zero, toC_energy, toC_bose, map_mul, map_add, map_neg, map_sub, map_inv₀, map_div₀, map_zpow₀, energy_scale_real hL, fermi_double_scale hL, fermi_double_zero_temp_scale hL]
  try push_cast
  try simp only [z0_r_0_R, z0_tlog_same_mass_eq, z0_tlog_zero_mass_eq, z0_tlog_t_same_mass_eq, z0_tlog_t_zero_mass_eq, ofReal_energy, ofReal_bose, Complex.ofReal_mul, Complex.ofReal_neg]
  have hm : ∀ a b : ℂ, (L : ℂ) * a * (L * b) = L * L * (a * b) := fun a b => by ring
  have hs : ∀ a b : ℂ, (L : ℂ) * L * a - L * L * b = L * L * (a - b) := fun a b => by ring
  try simp only [energy_scale hL, bose_scale hL, hm, hs, ← mul_neg, neg_neg]
  try simp only [energy_scale hL, bose_scale hL, hm, hs, TL_scale hL0, TL_scale_zero hL0, R0_scale, R0_scale_zero, R0_scale_pz, R0_scale_pz_zero, PF_scale hL0, PF_scale_zero hL0, ZL_scale hL0, ZL_scale_zero hL0]
  field_simp
  try ring

theorem scale_thermal_zero_momentum_i_m_m_t_i {L : ℝ} (hL : 0 < L) (q : ℝ) (om : T1) (m1 : T2) (m2 : T3) (beta : ℝ) :
    thermal.zero_momentum.i_m_m_t_i (L * q) (ofR L * om) (ofR L * m1) (ofR L * m2) (beta / L) = (L : ℂ) ^ (1 : ℤ) * thermal.zero_momentum.i_m_m_t_i q om m1 m2 beta := by
  have hL0 : (L : ℂ) ≠ 0 := Complex.ofReal_ne_zero.2 hL.ne'
  rw [toC_thermal_zero_momentum_i_m_m_t_i (L * q) (ofR L * om) (ofR L * m1) (ofR L * m2) (beta / L), toC_thermal_zero_momentum_i_m_m_t_i q om m1 m2 beta]
  simp only [thermal.zero_momentum.i_m_m_t_i, thermal.zero_momentum.i_m_m_l_i, r_0_eq, r_0_same_mass_eq, tlog_eq, tlog_same_mass_eq, tlog_zero_mass_eq, tlog_l_eq, tlog_l_same_mass_eq, tlog_l_zero_mass_eq, tlog_t_eq, tlog_t_same_mass_eq, tlog_t_zero_mass_eq, zm_r_0_eq, zm_r_0_same_mass_eq, z0_r_0_C, z0_r_0_eq, z0_tlog_eq, z0_tlog_t_eq, toC_complex, toC_real, ofR_complex, ofR_real, toC_ofR, toC_zero, toC_energy, toC_bose, map_mul, map_add, map_neg, map_sub, map_inv₀, map_div₀, map_zpow₀, energy_scale_real hL, fermi_double_scale hL, fermi_double_zero_temp_scale hL]
  try push_cast
  try simp only [z0_r_0_R, z0_tlog_same_mass_eq, z0_tlog_zero_mass_eq, z0_tlog_t_same_mass_eq, z0_tlog_t_zero_mass_eq, ofReal_energy, ofReal_bose, Complex.ofReal_mul, Complex.ofReal_neg]
  have hm : ∀ a b : ℂ, (L : ℂ) * a * (L * b) = L * L * (a * b) := fun a b => by ring
  have hs : ∀ a b : ℂ, (L : ℂ) * L * a - L * L * b = L * L * (a - b) := fun a b => by ring
  try simp only [energy_scale hL, bose_scale hL, hm, hs, ← mul_neg, neg_neg]
  try simp only [energy_scale hL, bose_scale hL, hm, hs, TL_scale hL0, TL_scale_zero hL0, R0_scale, R0_scale_zero, R0_scale_pz, R0_scale_pz_zero, PF_scale hL0, PF_scale_zero hL0, ZL_scale hL0, ZL_scale_zero hL0]
  field_simp
  try ring

theorem scale_thermal_zero_momentum_i_m_m_t_i_same_mass {L : ℝ} (hL : 0 < L) (q : ℝ) (om : T1) (m : T2) (beta : ℝ) :
    thermal.zero_momentum.i_m_m_t_i_same_mass (L * q) (ofR L * om) (ofR L * m) (beta / L) = (L : ℂ) ^ (1 : ℤ) * thermal.zero_momentum.i_m_m_t_i_same_mass q om m beta := by
  have hL0 : (L : ℂ) ≠ 0 := Complex.ofReal_ne_zero.2 hL.ne'
  rw [toC_thermal_zero_momentum_i_m_m_t_i_same_mass (L * q) (ofR L * om) (ofR L * m) (beta / L), toC_thermal_zero_momentum_i_m_m_t_i_same_mass q om m beta]
  simp only [thermal.zero_momentum.i_m_m_t_i_same_mass, thermal.zero_momentum.i_m_m_l_i_same_mass, r_0_eq, r_0_same_mass_eq, tlog_eq, tlog_same_mass_eq, tlog_zero_mass_eq, tlog_l_eq, tlog_l_same_mass_eq, tlog_l_zero_mass_eq, tlog_t_eq, tlog_t_same_mass_eq, tlog_t_zero_mass_eq, zm_r_0_eq, zm_r_0_same_mass_eq, z0_r_0_C, z0_r_0_eq, z0_tlog_eq, z0_tlog_t_eq, toC_complex, toC_real, ofR_complex, ofR_real, toC_ofR, toC_zero, toC_energy, toC_bose, map_mul, map_add, map_neg, map_sub, map_inv₀, map_div₀, map_zpow₀, energy_scale_real hL, fermi_double_scale hL, fermi_double_zero_temp_scale hL]
  try push_cast
  try simp only [z0_r_0_R, z0_tlog_same_mass_eq, z0_tlog_zero_mass_eq, z0_tlog_t_same_mass_eq, z0_tlog_t_zero_mass_eq, ofReal_energy, ofReal_bose, Complex.ofReal_mul, Complex.ofReal_neg]
  have hm : ∀ a b : ℂ, (L : ℂ) * a * (L * b) = L * L * (a * b) := fun a b => by ring
  have hs : ∀ a b : ℂ, (L : ℂ) * L * a - L * L * b = L * L * (a - b) := fun a b => by ring
  try simp only [energy_scale hL, bose_scale hL, hm, hs, ← mul_neg, neg_neg]
  try simp only [energy_scale hL, bose_scale hL, hm, hs, TL_scale hL0, TL_scale_zero hL0, R0_scale, R0_scale_zero, R0_scale_pz, R0_scale_pz_zero, PF_scale hL0, PF_scale_zero hL0, ZL_scale hL0, ZL_scale_zero hL0]
  field_simp
  try ring

theorem scale_thermal_zero_momentum_i_m_0_t_i {L : ℝ} (hL : 0 < L) (q : ℝ) (om : T1) (m : T2) (beta : ℝ) :
    thermal.zero_momentum.i_m_0_t_i (L * q) (ofR L * om) (ofR L * m) (beta / L) = (L : ℂ) ^ (1 : ℤ) * thermal.zero_momentum.i_m_0_t_i q om m beta := by
  have hL0 : (L : ℂ) ≠ 0 := Complex.ofReal_ne_zero.2 hL.ne'
  rw [toC_thermal_zero_momentum_i_m_0_t_i (L * q) (ofR L * om) (ofR L * m) (beta / L), toC_thermal_zero_momentum_i_m_0_t_i q om m beta]
  simp only [thermal.zero_momentum.i_m_0_t_i, thermal.zero_momentum.i_m_0_l_i, r_0_eq, r_0_same_mass_eq, tlog_eq, tlog_same_mass_eq, tlog_zero_mass_eq, tlog_l_eq, tlog_l_same_mass_eq, tlog_l_zero_mass_eq, tlog_t_eq, tlog_t_same_mass_eq, tlog_t_zero_mass_eq, zm_r_0_eq, zm_r_0_same_mass_eq, z0_r_0_C, z0_r_0_eq, z0_tlog_eq, z0_tlog_t_eq, toC_complex, toC_real, ofR_complex, ofR_real, toC_ofR, toC_zero, toC_energy, toC_bose, map_mul, map_add, map_neg, map_sub, map_inv₀, map_div₀, map_zpow₀, energy_scale_real hL, fermi_double_scale hL, fermi_double_zero_temp_scale hL]
  try push_cast
  try simp only [z0_r_0_R, z0_tlog_same_mass_eq, z0_tlog_zero_mass_eq, z0_tlog_t_same_mass_eq, z0_tlog_t_zero_mass_eq, ofReal_energy, ofReal_bose, Complex.ofReal_mul, Complex.ofReal_neg]
  have hm : ∀ a b : ℂ, (L : ℂ) * a * (L * b) = L * L * (a * b) := fun a b => by ring
  have hs : ∀ a b : ℂ, (L : ℂ) * L * a - L * L * b = L * L * (a - b) := fun a b => by ring
  try simp only [energy_scale hL, bose_scale hL, hm, hs, ← mul_neg, neg_neg]
  try simp only [energy_scale hL, bose_scale hL, hm, hs, TL_scale hL0, TL_scale_zero hL0, R0_scale, R0_scale_zero, R0_scale_pz, R0_scale_pz_zero, PF_scale hL0, PF_scale_zero hL0, ZL_scale hL0, ZL_scale_zero hL0]
  field_simp
  try ring

theorem scale_thermal_zero_momentum_i_0_0_t_i {L : ℝ} (hL : 0 < L) (q : ℝ) (om : T) (beta : ℝ) :
    thermal.zero_momentum.i_0_0_t_i (L * q) (ofR L * om) (beta / L) = (L : ℂ) ^ (1 : ℤ) * thermal.zero_momentum.i_0_0_t_i q om beta := by
  have hL0 : (L : ℂ) ≠ 0 := Complex.ofReal_ne_zero.2 hL.ne'
  rw [toC_thermal_zero_momentum_i_0_0_t_i (L * q) (ofR L * om) (beta / L), toC_thermal_zero_momentum_i_0_0_t_i q om beta]
  simp only [thermal.zero_momentum.i_0_0_t_i, thermal.zero_momentum.i_0_0_l_i, r_0_eq, r_0_same_mass_eq, tlog_eq, tlog_same_mass_eq, tlog_zero_mass_eq, tlog_l_eq, tlog_l_same_mass_eq, tlog_l_zero_mass_eq, tlog_t_eq, tlog_t_same_mass_eq, tlog_t_zero_mass_eq, zm_r_0_eq, zm_r_0_same_mass_eq, z0_r_0_C, z0_r_0_eq, z0_tlog_eq, z0_tlog_t_eq, toC_complex, toC_real, ofR_complex, ofR_real, toC_ofR, toC_zero, toC_energy, toC_bose, map_mul, map_add, map_neg, map_sub, map_inv₀, map_div₀, map_zpow₀, energy_scale_real hL, fermi_double_scale hL, fermi_double_zero_temp_scale hL]
  try push_cast
  try simp only [z0_r_0_R, z0_tlog_same_mass_eq, z0_tlog_zero_mass_eq, z0_tlog_t_same_mass_eq, z0_tlog_t_zero_mass_eq, ofReal_energy, ofReal_bose, Complex.ofReal_mul, Complex.ofReal_neg]
  have hm : ∀ a b : ℂ, (L : ℂ) * a * (L * b) = L * L * (a * b) := fun a b => by ring
  have hs : ∀ a b : ℂ, (L : ℂ) * L * a - L * L * b = L * L * (a - b) := fun a b => by ring
  try simp only [energy_scale hL, bose_scale hL, hm, hs, ← mul_neg, neg_neg]
  try simp only [energy_scale hL, bose_scale hL, hm, hs, TL_scale hL0, TL_scale_zero hL0, R0_scale, R0_scale_zero, R0_scale_pz, R0_scale_pz_zero, PF_scale hL0, PF_scale_zero hL0, ZL_scale hL0, ZL_scale_zero hL0]
  field_simp
  try ring

theorem scale_thermal_zero_momentum_d_i_m_m_i {L : ℝ} (hL : 0 < L) (q : ℝ) (om : T1) (m1 : T2) (m2 : T3) (beta : ℝ) :
    thermal.zero_momentum.d_i_m_m_i (L * q) (ofR L * om) (ofR L * m1) (ofR L * m2) (beta / L) = (L : ℂ) ^ (-3 : ℤ) * thermal.zero_momentum.d_i_m_m_i q om m1 m2 beta := by
  have hL0 : (L : ℂ) ≠ 0 := Complex.ofReal_ne_zero.2 hL.ne'
  rw [toC_thermal_zero_momentum_d_i_m_m_i (L * q) (ofR L * om) (ofR L * m1) (ofR L * m2) (beta / L), toC_thermal_zero_momentum_d_i_m_m_i q om m1 m2 beta]
  simp only [thermal.zero_momentum.d_i_m_m_i, r_0_eq, r_0_same_mass_eq, tlog_eq, tlog_same_mass_eq, tlog_zero_mass_eq, tlog_l_eq, tlog_l_same_mass_eq, tlog_l_zero_mass_eq, tlog_t_eq, tlog_t_same_mass_eq, tlog_t_zero_mass_eq, zm_r_0_eq, zm_r_0_same_mass_eq, z0_r_0_C, z0_r_0_eq, z0_tlog_eq, z0_tlog_t_eq, toC_complex, toC_real, ofR_complex, ofR_real, toC_ofR, toC_zero, toC_energy, toC_bose, map_mul, map_add, map_neg, map_sub, map_inv₀, map_div₀, map_zpow₀, energy_scale_real hL, fermi_double_scale hL, fermi_double_zero_temp_scale hL]
  try push_cast
  try simp only [z0_r_0_R, z0_tlog_same_mass_eq, z0_tlog_zero_mass_eq, z0_tlog_t_same_mass_eq, z0_tlog_t_zero_mass_eq, ofReal_energy, ofReal_bose, Complex.ofReal_mul, Complex.ofReal_neg]
  have hm : ∀ a b : ℂ, (L : ℂ) * a * (L * b) = L * L * (a * b) := fun a b => by ring
  have hs : ∀ a b : ℂ, (L : ℂ) * L * a - L * L * b = L * L * (a - b) := fun a b => by ring
  try simp only [energy_scale hL, bose_scale hL, hm, hs, ← mul_neg, neg_neg]
  try simp only [energy_scale hL, bose_scale hL, hm, hs, TL_scale hL0, TL_scale_zero hL0, R0_scale, R0_scale_zero, R0_scale_pz, R0_scale_pz_zero, PF_scale hL0, PF_scale_zero hL0, ZL_scale hL0, ZL_scale_zero hL0]
  field_simp
  try ring

theorem scale_thermal_zero_momentum_d_i_m_m_i_same_mass {L : ℝ} (hL : 0 < L) (q : ℝ) (om : T1) (m : T2) (beta : ℝ) :
    thermal.zero_momentum.d_i_m_m_i_same_mass (L * q) (ofR L * om) (ofR L * m) (beta / L) = (L : ℂ) ^ (-3 : ℤ) * thermal.zero_momentum.d_i_m_m_i_same_mass q om m beta := by
  have hL0 : (L : ℂ) ≠ 0 := Complex.ofReal_ne_zero.2 hL.ne'
  rw [toC_thermal_zero_momentum_d_i_m_m_i_same_mass (L * q) (ofR L * om) (ofR L * m) (beta / L), toC_thermal_zero_momentum_d_i_m_m_i_same_mass q om m beta]
  simp only [thermal.zero_momentum.d_i_m_m_i_same_mass, r_0_eq, r_0_same_mass_eq, tlog_eq, tlog_same_mass_eq, tlog_zero_mass_eq, tlog_l_eq, tlog_l_same_mass_eq, tlog_l_zero_mass_eq, tlog_t_eq, tlog_t_same_mass_eq, tlog_t_zero_mass_eq, zm_r_0_eq, zm_r_0_same_mass_eq, z0_r_0_C, z0_r_0_eq, z0_tlog_eq, z0_tlog_t_eq, toC_complex, toC_real, ofR_complex, ofR_real, toC_ofR, toC_zero, toC_energy, toC_bose, map_mul, map_add, map_neg, map_sub, map_inv₀, map_div₀, map_zpow₀, energy_scale_real hL, fermi_double_scale hL, fermi_double_zero_temp_scale hL]
  try push_cast
  try simp only [z0_r_0_R, z0_tlog_same_mass_eq, z0_tlog_zero_mass_eq, z0_tlog_t_same_mass_eq, z0_tlog_t_zero_mass_eq, ofReal_energy, ofReal_bose, Complex.ofReal_mul, Complex.ofReal_neg]
  have hm : ∀ a b : ℂ, (L : ℂ) * a * (L * b) = L * L * (a * b) := fun a b => by ring
  have hs : ∀ a b : ℂ, (L : ℂ) * L * a - L * L * b = L * L * (a - b) := fun a b => by ring
  try simp only [energy_scale hL, bose_scale hL, hm, hs, ← mul_neg, neg_neg]
  try simp only [energy_scale hL, bose_scale hL, hm, hs, TL_scale hL0, TL_scale_zero hL0, R0_scale, R0_scale_zero, R0_scale_pz, R0_scale_pz_zero, PF_scale hL0, PF_scale_zero hL0, ZL_scale hL0, ZL_scale_zero hL0]
  field_simp
  try ring

theorem scale_thermal_zero_momentum_d_i_m_0_i {L : ℝ} (hL : 0 < L) (q : ℝ) (om : T1) (m : T2) (beta : ℝ) :
    thermal.zero_momentum.d_i_m_0_i (L * q) (ofR L * om) (ofR L * m) (beta / L) = (L : ℂ) ^ (-3 : ℤ) * thermal.zero_momentum.d_i_m_0_i q om m beta := by
  have hL0 : (L : ℂ) ≠ 0 := Complex.ofReal_ne_zero.2 hL.ne'
  rw [toC_thermal_zero_momentum_d_i_m_0_i (L * q) (ofR L * om) (ofR L * m) (beta / L), toC_thermal_zero_momentum_d_i_m_0_i q om m beta]
  simp only [thermal.zero_momentum.d_i_m_0_i, r_0_eq, r_0_same_mass_eq, tlog_eq, tlog_same_mass_eq, tlog_zero_mass_eq, tlog_l_eq, tlog_l_same_mass_eq, tlog_l_zero_mass_eq, tlog_t_eq, tlog_t_same_mass_eq, tlog_t_zero_mass_eq, zm_r_0_eq, zm_r_0_same_mass_eq, z0_r_0_C, z0_r_0_eq, z0_tlog_eq, z0_tlog_t_eq, toC_complex, toC_real, ofR_complex, ofR_real, toC_ofR, toC_zero, toC_energy, toC_bose, map_mul, map_add, map_neg, map_sub, map_inv₀, map_div₀, map_zpow₀, energy_scale_real hL, fermi_double_scale hL, fermi_double_zero_temp_scale hL]
  try push_cast
  try simp only [z0_r_0_R, z0_tlog_same_mass_eq, z0_tlog_zero_mass_eq, z0_tlog_t_same_mass_eq, z0_tlog_t_zero_mass_eq, ofReal_energy, ofReal_bose, Complex.ofReal_mul, Complex.ofReal_neg]
  have hm : ∀ a b : ℂ, (L : ℂ) * a * (L * b) = L * L * (a * b) := fun a b => by ring
  have hs : ∀ a b : ℂ, (L : ℂ) * L * a - L * L * b = L * L * (a - b) := fun a b => by ring
  try simp only [energy_scale hL, bose_scale hL, hm, hs, ← mul_neg, neg_neg]
  try simp only [energy_scale hL, bose_scale hL, hm, hs, TL_scale hL0, TL_scale_zero hL0, R0_scale, R0_scale_zero, R0_scale_pz, R0_scale_pz_zero, PF_scale hL0, PF_scale_zero hL0, ZL_scale hL0, ZL_scale_zero hL0]
  field_simp
  try ring

theorem scale_thermal_zero_momentum_d_i_0_0_i {L : ℝ} (hL : 0 < L) (q : ℝ) (om : T) (beta : ℝ) :
    thermal.zero_momentum.d_i_0_0_i (L * q) (ofR L * om) (beta / L) = (L : ℂ) ^ (-3 : ℤ) * thermal.zero_momentum.d_i_0_0_i q om beta := by
  have hL0 : (L : ℂ) ≠ 0 := Complex.ofReal_ne_zero.2 hL.ne'
  rw [toC_thermal_zero_momentum_d_i_0_0_i (L * q) (ofR L * om) (beta / L), toC_thermal_zero_momentum_d_i_0_0_i q om beta]
  simp only [thermal.zero_momentum.d_i_0_0_i, r_0_eq, r_0_same_mass_eq, tlog_eq, tlog_same_mass_eq, tlog_zero_mass_eq, tlog_l_eq, tlog_l_same_mass_eq, tlog_l_zero_mass_eq, tlog_t_eq, tlog_t_same_mass_eq, tlog_t_zero_mass_eq, zm_r_0_eq, zm_r_0_same_mass_eq, z0_r_0_C, z0_r_0_eq, z0_tlog_eq, z0_tlog_t_eq, toC_complex, toC_real, ofR_complex, ofR_real, toC_ofR, toC_zero, toC_energy, toC_bose, map_mul, map_add, map_neg, map_sub, map_inv₀, map_div₀, map_zpow₀, energy_scale_real hL, fermi_double_scale hL, fermi_double_zero_temp_scale hL]
  try push_cast
  try simp only [z0_r_0_R, z0_tlog_same_mass_eq, z0_tlog_zero_mass_eq, z0_tlog_t_same_mass_eq, z0_tlog_t_zero_mass_eq, ofReal_energy, ofReal_bose, Complex.ofReal_mul, Complex.ofReal_neg]
  have hm : ∀ a b : ℂ, (L : ℂ) * a * (L * b) = L * L * (a * b) := fun a b => by ring
  have hs : ∀ a b : ℂ, (L : ℂ) * L * a - L * L * b = L * L * (a - b) := fun a b => by ring
  try simp only [energy_scale hL, bose_scale hL, hm, hs, ← mul_neg, neg_neg]
  try simp only [energy_scale hL, bose_scale hL, hm, hs, TL_scale hL0, TL_scale_zero hL0, R0_scale, R0_scale_zero, R0_scale_pz, R0_scale_pz_zero, PF_scale hL0, PF_scale_zero hL0, ZL_scale hL0, ZL_scale_zero hL0]
  field_simp
  try ring

theorem scale_thermal_zero_momentum_d_i_m_m_l_i {L : ℝ} (hL : 0 < L) (q : ℝ) (om : T1) (m1 : T2) (m2 : T3) (beta : ℝ) :
    thermal.zero_momentum.d_i_m_m_l_i (L * q) (ofR L * om) (ofR L * m1) (ofR L * m2) (beta / L) = (L : ℂ) ^ (-1 : ℤ) * thermal.zero_momentum.d_i_m_m_l_i q om m1 m2 beta := by
  have hL0 : (L : ℂ) ≠ 0 := Complex.ofReal_ne_zero.2 hL.ne'
  rw [toC_thermal_zero_momentum_d_i_m_m_l_i (L * q) (ofR L * om) (ofR L * m1) (ofR L * m2) (beta / L), toC_thermal_zero_momentum_d_i_m_m_l_i q om m1 m2 beta]
  simp only [thermal.zero_momentum.d_i_m_m_l_i, r_0_eq, r_0_same_mass_eq, tlog_eq, tlog_same_mass_eq, tlog_zero_mass_eq, tlog_l_eq, tlog_l_same_mass_eq, tlog_l_zero_mass_eq, tlog_t_eq, tlog_t_same_mass_eq, tlog_t_zero_mass_eq, zm_r_0_eq, zm_r_0_same_mass_eq, z0_r_0_C, z0_r_0_eq, z0_tlog_eq, z0_tlog_t_eq, toC_complex, toC_real, ofR_complex, ofR_real, toC_ofR, toC_zero, toC_energy, toC_bose, map_mul, map_add, map_neg, map_sub, map_inv₀, map_div₀, map_zpow₀, energy_scale_real hL, fermi_double_scale hL, fermi_double_zero_temp_scale hL]
  try push_cast
  try simp only [z0_r_0_R, z0_tlog_same_mass_eq, z0_tlog_zero_mass_eq, z0_tlog_t_same_mass_eq, z0_tlog_t_zero_mass_eq, ofReal_energy, ofReal_bose, Complex.ofReal_mul, Complex.ofReal_neg]
  have hm : ∀ a b : ℂ, (L : ℂ) * a * (L * b) = L * L * (a * b) := fun a b => by ring
  have hs : ∀ a b : ℂ, (L : ℂ) * L * a - L * L * b = L * L * (a - b) := fun a b => by ring
  try simp only [energy_scale hL, bose_scale hL, hm, hs, ← mul_neg, neg_neg]
  try simp only [energy_scale hL, bose_scale hL, hm, hs, TL_scale hL0, TL_scale_zero hL0, R0_scale, R0_scale_zero, R0_scale_pz, R0_scale_pz_zero, PF_scale hL0, PF_scale_zero hL0, ZL_scale hL0, ZL_scale_zero hL0]
  field_simp
  try ring

theorem scale_thermal_zero_momentum_d_i_m_m_l_i_same_mass {L : ℝ} (hL : 0 < L) (q : ℝ) (om : T1) (m : T2) (beta : ℝ) :
    thermal.zero_momentum.d_i_m_m_l_i_same_mass (L * q) (ofR L * om) (ofR L * m) (beta / L) = (L : ℂ) ^ (-1 : ℤ) * thermal.zero_momentum.d_i_m_m_l_i_same_mass q om m beta := by
  have hL0 : (L : ℂ) ≠ 0 := Complex.ofReal_ne_zero.2 hL.ne'
  rw [toC_thermal_zero_momentum_d_i_m_m_l_i_same_mass (L * q) (ofR L * om) (ofR L * m) (beta / L), toC_thermal_zero_momentum_d_i_m_m_l_i_same_mass q om m beta]
  simp only [thermal.zero_momentum.d_i_m_m_l_i_same_mass, r_0_eq, r_0_same_mass_eq, tlog_eq, tlog_same_mass_eq, tlog_zero_mass_eq, tlog_l_eq, tlog_l_same_mass_eq, tlog_l_zero_mass_eq, tlog_t_eq, tlog_t_same_mass_eq, tlog_t_zero_mass_eq, zm_r_0_eq, zm_r_0_same_mass_eq, z0_r_0_C, z0_r_0_eq, z0_tlog_eq, z0_tlog_t_eq, toC_complex, toC_real, ofR_complex, ofR_real, toC_ofR, toC_zero, toC_energy, toC_bose, map_mul, map_add, map_neg, map_sub, map_inv₀, map_div₀, map_zpow₀, energy_scale_real hL, fermi_double_scale hL, fermi_double_zero_temp_scale hL]
  try push_cast
  try simp only [z0_r_0_R, z0_tlog_same_mass_eq, z0_tlog_zero_mass_eq, z0_tlog_t_same_mass_eq, z0_tlog_t_zero_mass_eq, ofReal_energy, ofReal_bose, Complex.ofReal_mul, Complex.ofReal_neg]
  have hm : ∀ a b : ℂ, (L : ℂ) * a * (L * b) = L * L * (a * b) := fun a b => by ring
  have hs : ∀ a b : ℂ, (L : ℂ) * L * a - L * L * b = L * L * (a - b) := fun a b => by ring
  try simp only [energy_scale hL, bose_scale hL, hm, hs, ← mul_neg, neg_neg]
  try simp only [energy_scale hL, bose_scale hL, hm, hs, TL_scale hL0, TL_scale_zero hL0, R0_scale, R0_scale_zero, R0_scale_pz, R0_scale_pz_zero, PF_scale hL0, PF_scale_zero hL0, ZL_scale hL0, ZL_scale_zero hL0]
  field_simp
  try ring

theorem scale_thermal_zero_momentum_d_i_m_0_l_i {L : ℝ} (hL : 0 < L) (q : ℝ) (om : T1) (m : T2) (beta : ℝ) :
    thermal.zero_momentum.d_i_m_0_l_i (L * q) (ofR L * om) (ofR L * m) (beta / L) = (L : ℂ) ^ (-1 : ℤ) * thermal.zero_momentum.d_i_m_0_l_i q om m beta := by
  have hL0 : (L : ℂ) ≠ 0 := Complex.ofReal_ne_zero.2 hL.ne'
  rw [toC_thermal_zero_momentum_d_i_m_0_l_i (L * q) (ofR L * om) (ofR L * m) (beta / L), toC_thermal_zero_momentum_d_i_m_0_l_i q om m beta]
  simp only [thermal.zero_momentum.d_i_m_0_l_i, r_0_eq, r_0_same_mass_eq, tlog_eq, tlog_same_mass_eq, tlog_zero_mass_eq, tlog_l_eq, tlog_l_same_mass_eq, tlog_l_zero_mass_eq, tlog_t_eq, tlog_t_same_mass_eq, tlog_t_zero_mass_eq, zm_r_0_eq, zm_r_0_same_mass_eq, z0_r_0_C, z0_r_0_eq, z0_tlog_eq, z0_tlog_t_eq, toC_complex, toC_real, ofR_complex, ofR_real, toC_ofR, toC_zero, toC_energy, toC_bose, map_mul, map_add, map_neg, map_sub, map_inv₀, map_div₀, map_zpow₀, energy_scale_real hL, fermi_double_scale hL, fermi_double_zero_temp_scale hL]
  try push_cast
  try simp only [z0_r_0_R, z0_tlog_same_mass_eq, z0_tlog_zero_mass_eq, z0_tlog_t_same_mass_eq, z0_tlog_t_zero_mass_eq, ofReal_energy, ofReal_bose, Complex.ofReal_mul, Complex.ofReal_neg]
  have hm : ∀ a b : ℂ, (L : ℂ) * a * (L * b) = L * L * (a * b) := fun a b => by ring
  have hs : ∀ a b : ℂ, (L : ℂ) * L * a - L * L * b = L * L * (a - b) := fun a b => by ring
  try simp only [energy_scale hL, bose_scale hL, hm, hs, ← mul_neg, neg_neg]
  try simp only [energy_scale hL, bose_scale hL, hm, hs, TL_scale hL0, TL_scale_zero hL0, R0_scale, R0_scale_zero, R0_scale_pz, R0_scale_pz_zero, PF_scale hL0, PF_scale_zero hL0, ZL_scale hL0, ZL_scale_zero hL0]
  field_simp
  try ring

theorem scale_thermal_zero_momentum_d_i_0_0_l_i {L : ℝ} (hL : 0 < L) (q : ℝ) (om : T) (beta : ℝ) :
    thermal.zero_momentum.d_i_0_0_l_i (L * q) (ofR L * om) (beta / L) = (L : ℂ) ^ (-1 : ℤ) * thermal.zero_momentum.d_i_0_0_l_i q om beta := by
  have hL0 : (L : ℂ) ≠ 0 := Complex.ofReal_ne_zero.2 hL.ne'
  rw [toC_thermal_zero_momentum_d_i_0_0_l_i (L * q) (ofR L * om) (beta / L), toC_thermal_zero_momentum_d_i_0_0_l_i q om beta]
  simp only [thermal.zero_momentum.d_i_0_0_l_i, r_0_eq, r_0_same_mass_eq, tlog_eq, tlog_same_mass_eq, tlog_zero_mass_eq, tlog_l_eq, tlog_l_same_mass_eq, tlog_l_zero_mass_eq, tlog_t_eq, tlog_t_same_mass_eq, tlog_t_zero_mass_eq, zm_r_0_eq, zm_r_0_same_mass_eq, z0_r_0_C, z0_r_0_eq, z0_tlog_eq, z0_tlog_t_eq, toC_complex, toC_real, ofR_complex, ofR_real, toC_ofR, toC_zero, toC_energy, toC_bose, map_mul, map_add, map_neg, map_sub, map_inv₀, map_div₀, map_zpow₀, energy_scale_real hL, fermi_double_scale hL, fermi_double_zero_temp_scale hL]
  try push_cast
  try simp only [z0_r_0_R, z0_tlog_same_mass_eq, z0_tlog_zero_mass_eq, z0_tlog_t_same_mass_eq, z0_tlog_t_zero_mass_eq, ofReal_energy, ofReal_bose, Complex.ofReal_mul, Complex.ofReal_neg]
  have hm : ∀ a b : ℂ, (L : ℂ) * a * (L * b) = L * L * (a * b) := fun a b => by ring
  have hs : ∀ a b : ℂ, (L : ℂ) * L * a - L * L * b = L * L * (a - b) := fun a b => by ring
  try simp only [energy_scale hL, bose_scale hL, hm, hs, ← mul_neg, neg_neg]
  try simp only [energy_scale hL, bose_scale hL, hm, hs, TL_scale hL0, TL_scale_zero hL0, R0_scale, R0_scale_zero, R0_scale_pz, R0_scale_pz_zero, PF_scale hL0, PF_scale_zero hL0, ZL_scale hL0, ZL_scale_zero hL0]
  field_simp
  try ring

theorem scale_thermal_zero_momentum_d_i_m_m_t_i {L : ℝ} (hL : 0 < L) (q : ℝ) (om : T1) (m1 : T2) (m2 : T3) (beta : ℝ) :
    thermal.zero_momentum.d_i_m_m_t_i (L * q) (ofR L * om) (ofR L * m1) (ofR L * m2) (beta / L) = (L : ℂ) ^ (-1 : ℤ) * thermal.zero_momentum.d_i_m_m_t_i q om m1 m2 beta := by
  have hL0 : (L : ℂ) ≠ 0 := Complex.ofReal_ne_zero.2 hL.ne'
  rw [toC_thermal_zero_momentum_d_i_m_m_t_i (L * q) (ofR L * om) (ofR L * m1) (ofR L * m2) (beta / L), toC_thermal_zero_momentum_d_i_m_m_t_i q om m1 m2 beta]
  simp only [thermal.zero_momentum.d_i_m_m_t_i, thermal.zero_momentum.d_i_m_m_l_i, r_0_eq, r_0_same_mass_eq, tlog_eq, tlog_same_mass_eq, tlog_zero_mass_eq, tlog_l_eq, tlog_l_same_mass_eq, tlog_l_zero_mass_eq, tlog_t_eq, tlog_t_same_mass_eq, tlog_t_zero_mass_eq, zm_r_0_eq, zm_r_0_same_mass_eq, z0_r_0_C, z0_r_0_eq, z0_tlog_eq, z0_tlog_t_eq, toC_complex, toC_real, ofR_complex, ofR_real, toC_ofR, toC_zero, toC_energy, toC_bose, map_mul, map_add, map_neg, map_sub, map_inv₀, map_div₀, map_zpow₀, energy_scale_real hL, fermi_double_scale hL, fermi_double_zero_temp_scale hL]
  try push_cast
  try simp only [z0_r_0_R, z0_tlog_same_mass_eq, z0_tlog_zero_mass_eq, z0_tlog_t_same_mass_eq, z0_tlog_t_zero_mass_eq, ofReal_energy, ofReal_bose, Complex.ofReal_mul, Complex.ofReal_neg]
  have hm : ∀ a b : ℂ, (L : ℂ) * a * (L * b) = L * L * (a * b) := fun a b => by ring
  have hs : ∀ a b : ℂ, (L : ℂ) * L * a - L * L * b = L * L * (a - b) := fun a b => by ring
  try simp only [energy_scale hL, bose_scale hL, hm, hs, ← mul_neg, neg_neg]
  try simp only [energy_scale hL, bose_scale hL, hm, hs, TL_scale hL0, TL_scale_zero hL0, R0_scale, R0_scale_zero, R0_scale_pz, R0_scale_pz_zero, PF_scale hL0, PF_scale_zero hL0, ZL_scale hL0, ZL_scale_zero hL0]
  field_simp
  try ring

theorem scale_thermal_zero_momentum_d_i_m_m_t_i_same_mass {L : ℝ} (hL : 0 < L) (q : ℝ) (om : T1) (m : T2) (beta : ℝ) :
    thermal.zero_momentum.d_i_m_m_t_i_same_mass (L * q) (ofR L * om) (ofR L * m) (beta / L) = (L : ℂ) ^ (-1 : ℤ) * thermal.zero_momentum.d_i_m_m_t_i_same_mass q om m beta := by
  have hL0 : (L : ℂ) ≠ 0 := Complex.ofReal_ne_zero.2 hL.ne'
  rw [toC_thermal_zero_momentum_d_i_m_m_t_i_same_mass (L * q) (ofR L * om) (ofR L * m) (beta / L), toC_thermal_zero_momentum_d_i_m_m_t_i_same_mass q om m beta]
  simp only [thermal.zero_momentum.d_i_m_m_t_i_same_mass, thermal.zero_momentum.d_i_m_m_l_i_same_mass, r_0_eq, r_0_same_mass_eq, tlog_eq, tlog_same_mass_eq, tlog_zero_mass_eq, tlog_l_eq, tlog_l_same_mass_eq, tlog_l_zero_mass_eq, tlog_t_eq, tlog_t_same_mass_eq, tlog_t_zero_mass_eq, zm_r_0_eq, zm_r_0_same_mass_eq, z0_r_0_C, z0_r_0_eq, z0_tlog_eq, z0_tlog_t_eq, toC_complex, toC_real, ofR_complex, ofR_real, toC_ofR, toC_zero, toC_energy, toC_bose, map_mul, map_add, map_neg, map_sub, map_inv₀, map_div₀, map_zpow₀, energy_scale_real hL, fermi_double_scale hL, fermi_double_zero_temp_scale hL]
  try push_cast
  try simp only [z0_r_0_R, z0_tlog_same_mass_eq, z0_tlog_zero_mass_eq, z0_tlog_t_same_mass_eq, z0_tlog_t_zero_mass_eq, ofReal_energy, ofReal_bose, Complex.ofReal_mul, Complex.ofReal_neg]
  have hm : ∀ a b : ℂ, (L : ℂ) * a * (L * b) = L * L * (a * b) := fun a b => by ring
  have hs : ∀ a b : ℂ, (L : ℂ) * L * a - L * L * b = L * L * (a - b) := fun a b => by ring
  try simp only [energy_scale hL, bose_scale hL, hm, hs, ← mul_neg, neg_neg]
  try simp only [energy_scale hL, bose_scale hL, hm, hs, TL_scale hL0, TL_scale_zero hL0, R0_scale, R0_scale_zero, R0_scale_pz, R0_scale_pz_zero, PF_scale hL0, PF_scale_zero hL0, ZL_scale hL0, ZL_scale_zero hL0]
  field_simp
  try ring

theorem scale_thermal_zero_momentum_d_i_m_0_t_i {L : ℝ} (hL : 0 < L) (q : ℝ) (om : T1) (m : T2) (beta : ℝ) :
    thermal.zero_momentum.d_i_m_0_t_i (L * q) (ofR L * om) (ofR L * m) (beta / L) = (L : ℂ) ^ (-1 : ℤ) * thermal.zero_momentum.d_i_m_0_t_i q om m beta := by
  have hL0 : (L : ℂ) ≠ 0 := Complex.ofReal_ne_zero.2 hL.ne'
  rw [toC_thermal_zero_momentum_d_i_m_0_t_i (L * q) (ofR L * om) (ofR L * m) (beta / L), toC_thermal_zero_momentum_d_i_m_0_t_i q om m beta]
  simp only [thermal.zero_momentum.d_i_m_0_t_i, thermal.zero_momentum.d_i_m_0_l_i, r_0_eq, r_0_same_mass_eq, tlog_eq, tlog_same_mass_eq, tlog_zero_mass_eq, tlog_l_eq, tlog_l_same_mass_eq, tlog_l_zero_mass_eq, tlog_t_eq, tlog_t_same_mass_eq, tlog_t_zero_mass_eq, zm_r_0_eq, zm_r_0_same_mass_eq, z0_r_0_C, z0_r_0_eq, z0_tlog_eq, z0_tlog_t_eq, toC_complex, toC_real, ofR_complex, ofR_real, toC_ofR, toC_zero, toC_energy, toC_bose, map_mul, map_add, map_neg, map_sub, map_inv₀, map_div₀, map_zpow₀, energy_scale_real hL, fermi_double_scale hL, fermi_double_zero_temp_scale hL]
  try push_cast
  try simp only [z0_r_0_R, z0_tlog_same_mass_eq, z0_tlog_zero_mass_eq, z0_tlog_t_same_mass_eq, z0_tlog_t_zero_mass_eq, ofReal_energy, ofReal_bose, Complex.ofReal_mul, Complex.ofReal_neg]
  have hm : ∀ a b : ℂ, (L : ℂ) * a * (L * b) = L * L * (a * b) := fun a b => by ring
  have hs : ∀ a b : ℂ, (L : ℂ) * L * a - L * L * b = L * L * (a - b) := fun a b => by ring
  try simp only [energy_scale hL, bose_scale hL, hm, hs, ← mul_neg, neg_neg]
  try simp only [energy_scale hL, bose_scale hL, hm, hs, TL_scale hL0, TL_scale_zero hL0, R0_scale, R0_scale_zero, R0_scale_pz, R0_scale_pz_zero, PF_scale hL0, PF_scale_zero hL0, ZL_scale hL0, ZL_scale_zero hL0]
  field_simp
  try ring

theorem scale_thermal_zero_momentum_d_i_0_0_t_i {L : ℝ} (hL : 0 < L) (q : ℝ) (om : T) (beta : ℝ) :
    thermal.zero_momentum.d_i_0_0_t_i (L * q) (ofR L * om) (beta / L) = (L : ℂ) ^ (-1 : ℤ) * thermal.zero_momentum.d_i_0_0_t_i q om beta := by
  have hL0 : (L : ℂ) ≠ 0 := Complex.ofReal_ne_zero.2 hL.ne'
  rw [toC_thermal_zero_momentum_d_i_0_0_t_i (L * q) (ofR L * om) (beta / L), toC_thermal_zero_momentum_d_i_0_0_t_i q om beta]
  simp only [thermal.zero_momentum.d_i_0_0_t_i, thermal.zero_momentum.d_i_0_0_l_i, r_0_eq, r_0_same_mass_eq, tlog_eq, tlog_same_mass_eq, tlog_zero_mass_eq, tlog_l_eq, tlog_l_same_mass_eq, tlog_l_zero_mass_eq, tlog_t_eq, tlog_t_same_mass_eq, tlog_t_zero_mass_eq, zm_r_0_eq, zm_r_0_same_mass_eq, z0_r_0_C, z0_r_0_eq, z0_tlog_eq, z0_tlog_t_eq, toC_complex, toC_real, ofR_complex, ofR_real, toC_ofR, toC_zero, toC_energy, toC_bose, map_mul, map_add, map_neg, map_sub, map_inv₀, map_div₀, map_zpow₀, energy_scale_real hL, fermi_double_scale hL, fermi_double_zero_temp_scale hL]
  try push_cast
  try simp only [z0_r_0_R, z0_tlog_same_mass_eq, z0_tlog_zero_mass_eq, z0_tlog_t_same_mass_eq, z0_tlog_t_zero_mass_eq, ofReal_energy, ofReal_bose, Complex.ofReal_mul, Complex.ofReal_neg]
  have hm : ∀ a b : ℂ, (L : ℂ) * a * (L * b) = L * L * (a * b) := fun a b => by ring
  have hs : ∀ a b : ℂ, (L : ℂ) * L * a - L * L * b = L * L * (a - b) := fun a b => by ring
  try simp only [energy_scale hL, bose_scale hL, hm, hs, ← mul_neg, neg_neg]
  try simp only [energy_scale hL, bose_scale hL, hm, hs, TL_scale hL0, TL_scale_zero hL0, R0_scale, R0_scale_zero, R0_scale_pz, R0_scale_pz_zero, PF_scale hL0, PF_scale_zero hL0, ZL_scale hL0, ZL_scale_zero hL0]
  field_simp
  try ring

theorem scale_thermal_zero_matsubara_i_m_m_i {L : ℝ} (hL : 0 < L) (q : ℝ) (p : ℝ) (m1 : T1) (m2 : T2) (beta : ℝ) :
    thermal.zero_matsubara.i_m_m_i (L * q) (L * p) (ofR L * m1) (ofR L * m2) (beta / L) = (L : ℂ) ^ (-1 : ℤ) * thermal.zero_matsubara.i_m_m_i q p m1 m2 beta := by
  have hL0 : (L : ℂ) ≠ 0 := Complex.ofReal_ne_zero.2 hL.ne'
  rw [toC_thermal_zero_matsubara_i_m_m_i (L * q) (L * p) (ofR L * m1) (ofR L * m2) (beta / L), toC_thermal_zero_matsubara_i_m_m_i q p m1 m2 beta]
  simp only [thermal.zero_matsubara.i_m_m_i, r_0_eq, r_0_same_mass_eq, tlog_eq, tlog_same_mass_eq, tlog_zero_mass_eq, tlog_l_eq, tlog_l_same_mass_eq, tlog_l_zero_mass_eq, tlog_t_eq, tlog_t_same_mass_eq, tlog_t_zero_mass_eq, zm_r_0_eq, zm_r_0_same_mass_eq, z0_r_0_C, z0_r_0_eq, z0_tlog_eq, z0_tlog_t_eq, toC_complex, toC_real, ofR_complex, ofR_real, toC_ofR, toC_zero, toC_energy, toC_bose, map_mul, map_add, map_neg, map_sub, map_inv₀, map_div₀, map_zpow₀, energy_scale_real hL, fermi_double_scale hL, fermi_double_zero_temp_scale hL]
  try push_cast
  try simp only [z0_r_0_R, z0_tlog_same_mass_eq, z0_tlog_zero_mass_eq, z0_tlog_t_same_mass_eq, z0_tlog_t_zero_mass_eq, ofReal_energy, ofReal_bose, Complex.ofReal_mul, Complex.ofReal_neg]
  have hm : ∀ a b : ℂ, (L : ℂ) * a * (L * b) = L * L * (a * b) := fun a b => by ring
  have hs : ∀ a b : ℂ, (L : ℂ) * L * a - L * L * b = L * L * (a - b) := fun a b => by ring
  try simp only [energy_scale hL, bose_scale hL, hm, hs, ← mul_neg, neg_neg]
  try simp only [energy_scale hL, bose_scale hL, hm, hs, TL_scale hL0, TL_scale_zero hL0, R0_scale, R0_scale_zero, R0_scale_pz, R0_scale_pz_zero, PF_scale hL0, PF_scale_zero hL0, ZL_scale hL0, ZL_scale_zero hL0]
  field_simp
  try ring

theorem scale_thermal_zero_matsubara_i_m_m_i_same_mass {L : ℝ} (hL : 0 < L) (q : ℝ) (p : ℝ) (m : T) (beta : ℝ) :
    thermal.zero_matsubara.i_m_m_i_same_mass (L * q) (L * p) (ofR L * m) (beta / L) = (ofR L : T) ^ (-1 : ℤ) * thermal.zero_matsubara.i_m_m_i_same_mass q p m beta := by
  have hL0 : (L : ℂ) ≠ 0 := Complex.ofReal_ne_zero.2 hL.ne'
  apply toC_injective
  simp only [map_mul, map_zpow₀, toC_ofR]
  refine (toC_thermal_zero_matsubara_i_m_m_i_same_mass (L * q) (L * p) (ofR L * m) (beta / L)).trans (Eq.trans ?_ (congrArg ((L : ℂ) ^ (-1 : ℤ) * ·) (toC_thermal_zero_matsubara_i_m_m_i_same_mass q p m beta).symm))
  simp only [thermal.zero_matsubara.i_m_m_i_same_mass, r_0_eq, r_0_same_mass_eq, tlog_eq, tlog_same_mass_eq, tlog_zero_mass_eq, tlog_l_eq, tlog_l_same_mass_eq, tlog_l_zero_mass_eq, tlog_t_eq, tlog_t_same_mass_eq, tlog_t_zero_mass_eq, zm_r_0_eq, zm_r_0_same_mass_eq, z0_r_0_C, z0_r_0_eq, z0_tlog_eq, z0_tlog_t_eq, toC_complex, toC_real, ofR_complex, ofR_real, toC_ofR, toC_zero, toC_energy, toC_bose, map_mul, map_add, map_neg, map_sub, map_inv₀, map_div₀, map_zpow₀, energy_scale_real hL, fermi_double_scale hL, fermi_double_zero_temp_scale hL]
  try push_cast
  try simp only [z0_r_0_R, z0_tlog_same_mass_eq, z0_tlog_zero_mass_eq, z0_tlog_t_same_mass_eq, z0_tlog_t_zero_mass_eq, ofReal_energy, ofReal_bose, Complex.ofReal_mul, Complex.ofReal_neg]
  have hm : ∀ a b : ℂ, (L : ℂ) * a * (L * b) = L * L * (a * b) := fun a b => by ring
  have hs : ∀ a b : ℂ, (L : ℂ) * L * a - L * L * b = L * L * (a - b) := fun a b => by ring
  try simp only [energy_scale hL, bose_scale hL, hm, hs, ← mul_neg, neg_neg]
  try simp only [energy_scale hL, bose_scale hL, hm, hs, TL_scale hL0, TL_scale_zero hL0, R0_scale, R0_scale_zero, R0_scale_pz, R0_scale_pz_zero, PF_scale hL0, PF_scale_zero hL0, ZL_scale hL0, ZL_scale_zero hL0]
  field_simp
  try ring

theorem scale_thermal_zero_matsubara_i_m_0_i {L : ℝ} (hL : 0 < L) (q : ℝ) (p : ℝ) (m : T) (beta : ℝ) :
    thermal.zero_matsubara.i_m_0_i (L * q) (L * p) (ofR L * m) (beta / L) = (L : ℂ) ^ (-1 : ℤ) * thermal.zero_matsubara.i_m_0_i q p m beta := by
  have hL0 : (L : ℂ) ≠ 0 := Complex.ofReal_ne_zero.2 hL.ne'
  rw [toC_thermal_zero_matsubara_i_m_0_i (L * q) (L * p) (ofR L * m) (beta / L), toC_thermal_zero_matsubara_i_m_0_i q p m beta]
  simp only [thermal.zero_matsubara.i_m_0_i, r_0_eq, r_0_same_mass_eq, tlog_eq, tlog_same_mass_eq, tlog_zero_mass_eq, tlog_l_eq, tlog_l_same_mass_eq, tlog_l_zero_mass_eq, tlog_t_eq, tlog_t_same_mass_eq, tlog_t_zero_mass_eq, zm_r_0_eq, zm_r_0_same_mass_eq, z0_r_0_C, z0_r_0_eq, z0_tlog_eq, z0_tlog_t_eq, toC_complex, toC_real, ofR_complex, ofR_real, toC_ofR, toC_zero, toC_energy, toC_bose, map_mul, map_add, map_neg, map_sub, map_inv₀, map_div₀, map_zpow₀, energy_scale_real hL, fermi_double_scale hL, fermi_double_zero_temp_scale hL]
  try push_cast
  try simp only [z0_r_0_R, z0_tlog_same_mass_eq, z0_tlog_zero_mass_eq, z0_tlog_t_same_mass_eq, z0_tlog_t_zero_mass_eq, ofReal_energy, ofReal_bose, Complex.ofReal_mul, Complex.ofReal_neg]
  have hm : ∀ a b : ℂ, (L : ℂ) * a * (L * b) = L * L * (a * b) := fun a b => by ring
  have hs : ∀ a b : ℂ, (L : ℂ) * L * a - L * L * b = L * L * (a - b) := fun a b => by ring
  try simp only [energy_scale hL, bose_scale hL, hm, hs, ← mul_neg, neg_neg]
  try simp only [energy_scale hL, bose_scale hL, hm, hs, TL_scale hL0, TL_scale_zero hL0, R0_scale, R0_scale_zero, R0_scale_pz, R0_scale_pz_zero, PF_scale hL0, PF_scale_zero hL0, ZL_scale hL0, ZL_scale_zero hL0]
  field_simp
  try ring

theorem scale_thermal_zero_matsubara_i_0_0_i {L : ℝ} (hL : 0 < L) (q : ℝ) (p : ℝ) (beta : ℝ) :
    thermal.zero_matsubara.i_0_0_i (L * q) (L * p) (beta / L) = L ^ (-1 : ℤ) * thermal.zero_matsubara.i_0_0_i q p beta := by
  have hL0 : (L : ℂ) ≠ 0 := Complex.ofReal_ne_zero.2 hL.ne'
  apply Complex.ofReal_injective
  simp only [thermal.zero_matsubara.i_0_0_i, r_0_eq, r_0_same_mass_eq, tlog_eq, tlog_same_mass_eq, tlog_zero_mass_eq, tlog_l_eq, tlog_l_same_mass_eq, tlog_l_zero_mass_eq, tlog_t_eq, tlog_t_same_mass_eq, tlog_t_zero_mass_eq, zm_r_0_eq, zm_r_0_same_mass_eq, z0_r_0_C, z0_r_0_eq, z0_tlog_eq, z0_tlog_t_eq, toC_complex, toC_real, ofR_complex, ofR_real, toC_ofR, toC_zero, toC_energy, toC_bose, map_mul, map_add, map_neg, map_sub, map_inv₀, map_div₀, map_zpow₀, energy_scale_real hL, fermi_double_scale hL, fermi_double_zero_temp_scale hL]
  try push_cast
  try simp only [z0_r_0_R, z0_tlog_same_mass_eq, z0_tlog_zero_mass_eq, z0_tlog_t_same_mass_eq, z0_tlog_t_zero_mass_eq, ofReal_energy, ofReal_bose, Complex.ofReal_mul, Complex.ofReal_neg]
  have hm : ∀ a b : ℂ, (L : ℂ) * a * (L * b) = L * L * (a * b) := fun a b => by ring
  have hs : ∀ a b : ℂ, (L : ℂ) * L * a - L * L * b = L * L * (a - b) := fun a b => by ring
  try simp only [energy_scale hL, bose_scale hL, hm, hs, ← mul_neg, neg_neg]
  try simp only [energy_scale hL, bose_scale hL, hm, hs, TL_scale hL0, TL_scale_zero hL0, R0_scale, R0_scale_zero, R0_scale_pz, R0_scale_pz_zero, PF_scale hL0, PF_scale_zero hL0, ZL_scale hL0, ZL_scale_zero hL0]
  field_simp
  try ring

theorem scale_thermal_zero_matsubara_i_m_m_l_i {L : ℝ} (hL : 0 < L) (q : ℝ) (p : ℝ) (m1 : T1) (m2 : T2) (beta : ℝ) :
    thermal.zero_matsubara.i_m_m_l_i (L * q) (L * p) (ofR L * m1) (ofR L * m2) (beta / L) = (L : ℂ) ^ (1 : ℤ) * thermal.zero_matsubara.i_m_m_l_i q p m1 m2 beta := by
  have hL0 : (L : ℂ) ≠ 0 := Complex.ofReal_ne_zero.2 hL.ne'
  rw [toC_thermal_zero_matsubara_i_m_m_l_i (L * q) (L * p) (ofR L * m1) (ofR L * m2) (beta / L), toC_thermal_zero_matsubara_i_m_m_l_i q p m1 m2 beta]
  simp only [thermal.zero_matsubara.i_m_m_l_i, r_0_eq, r_0_same_mass_eq, tlog_eq, tlog_same_mass_eq, tlog_zero_mass_eq, tlog_l_eq, tlog_l_same_mass_eq, tlog_l_zero_mass_eq, tlog_t_eq, tlog_t_same_mass_eq, tlog_t_zero_mass_eq, zm_r_0_eq, zm_r_0_same_mass_eq, z0_r_0_C, z0_r_0_eq, z0_tlog_eq, z0_tlog_t_eq, toC_complex, toC_real, ofR_complex, ofR_real, toC_ofR, toC_zero, toC_energy, toC_bose, map_mul, map_add, map_neg, map_sub, map_inv₀, map_div₀, map_zpow₀, energy_scale_real hL, fermi_double_scale hL, fermi_double_zero_temp_scale hL]
  try push_cast
  try simp only [z0_r_0_R, z0_tlog_same_mass_eq, z0_tlog_zero_mass_eq, z0_tlog_t_same_mass_eq, z0_tlog_t_zero_mass_eq, ofReal_energy, ofReal_bose, Complex.ofReal_mul, Complex.ofReal_neg]
  have hm : ∀ a b : ℂ, (L : ℂ) * a * (L * b) = L * L * (a * b) := fun a b => by ring
  have hs : ∀ a b : ℂ, (L : ℂ) * L * a - L * L * b = L * L * (a - b) := fun a b => by ring
  try simp only [energy_scale hL, bose_scale hL, hm, hs, ← mul_neg, neg_neg]
  try simp only [energy_scale hL, bose_scale hL, hm, hs, TL_scale hL0, TL_scale_zero hL0, R0_scale, R0_scale_zero, R0_scale_pz, R0_scale_pz_zero, PF_scale hL0, PF_scale_zero hL0, ZL_scale hL0, ZL_scale_zero hL0]
  field_simp
  try ring

theorem scale_thermal_zero_matsubara_i_m_m_l_i_same_mass {L : ℝ} (hL : 0 < L) (q : ℝ) (p : ℝ) (m : T) (beta : ℝ) :
    thermal.zero_matsubara.i_m_m_l_i_same_mass (L * q) (L * p) (ofR L * m) (beta / L) = (ofR L : T) ^ (1 : ℤ) * thermal.zero_matsubara.i_m_m_l_i_same_mass q p m beta := by
  have hL0 : (L : ℂ) ≠ 0 := Complex.ofReal_ne_zero.2 hL.ne'
  apply toC_injective
  simp only [map_mul, map_zpow₀, toC_ofR]
  refine (toC_thermal_zero_matsubara_i_m_m_l_i_same_mass (L * q) (L * p) (ofR L * m) (beta / L)).trans (Eq.trans ?_ (congrArg ((L : ℂ) ^ (1 : ℤ) * ·) (toC_thermal_zero_matsubara_i_m_m_l_i_same_mass q p m beta).symm))
  simp only [thermal.zero_matsubara.i_m_m_l_i_same_mass, r_0_eq, r_0_same_mass_eq, tlog_eq, tlog_same_mass_eq, tlog_zero_mass_eq, tlog_l_eq, tlog_l_same_mass_eq, tlog_l_zero_mass_eq, tlog_t_eq, tlog_t_same_mass_eq, tlog_t_zero_mass_eq, zm_r_0_eq, zm_r_0_same_mass_eq, z0_r_0_C, z0_r_0_eq, z0_tlog_eq, z0_tlog_t_eq, toC_complex, toC_real, ofR_complex, ofR_real, toC_ofR, toC_zero, toC_energy, toC_bose, map_mul, map_add, map_neg, map_sub, map_inv₀, map_div₀, map_zpow₀, energy_scale_real hL, fermi_double_scale hL, fermi_double_zero_temp_scale hL]
  try push_cast
  try simp only [z0_r_0_R, z0_tlog_same_mass_eq, z0_tlog_zero_mass_eq, z0_tlog_t_same_mass_eq, z0_tlog_t_zero_mass_eq, ofReal_energy, ofReal_bose, Complex.ofReal_mul, Complex.ofReal_neg]
  have hm : ∀ a b : ℂ, (L : ℂ) * a * (L * b) = L * L * (a * b) := fun a b => by ring
  have hs : ∀ a b : ℂ, (L : ℂ) * L * a - L * L * b = L * L * (a - b) := fun a b => by ring
  try simp only [energy_scale hL, bose_scale hL, hm, hs, ← mul_neg, neg_neg]
  try simp only [energy_scale hL, bose_scale hL, hm, hs, TL_scale hL0, TL_scale_zero hL0, R0_scale, R0_scale_zero, R0_scale_pz, R0_scale_pz_zero, PF_scale hL0, PF_scale_zero hL0, ZL_scale hL0, ZL_scale_zero hL0]
  field_simp
  try ring

theorem scale_thermal_zero_matsubara_i_m_0_l_i {L : ℝ} (hL : 0 < L) (q : ℝ) (p : ℝ) (m : T) (beta : ℝ) :
    thermal.zero_matsubara.i_m_0_l_i (L * q) (L * p) (ofR L * m) (beta / L) = (L : ℂ) ^ (1 : ℤ) * thermal.zero_matsubara.i_m_0_l_i q p m beta := by
  have hL0 : (L : ℂ) ≠ 0 := Complex.ofReal_ne_zero.2 hL.ne'
  rw [toC_thermal_zero_matsubara_i_m_0_l_i (L * q) (L * p) (ofR L * m) (beta / L), toC_thermal_zero_matsubara_i_m_0_l_i q p m beta]
  simp only [thermal.zero_matsubara.i_m_0_l_i, r_0_eq, r_0_same_mass_eq, tlog_eq, tlog_same_mass_eq, tlog_zero_mass_eq, tlog_l_eq, tlog_l_same_mass_eq, tlog_l_zero_mass_eq, tlog_t_eq, tlog_t_same_mass_eq, tlog_t_zero_mass_eq, zm_r_0_eq, zm_r_0_same_mass_eq, z0_r_0_C, z0_r_0_eq, z0_tlog_eq, z0_tlog_t_eq, toC_complex, toC_real, ofR_complex, ofR_real, toC_ofR, toC_zero, toC_energy, toC_bose, map_mul, map_add, map_neg, map_sub, map_inv₀, map_div₀, map_zpow₀, energy_scale_real hL, fermi_double_scale hL, fermi_double_zero_temp_scale hL]
  try push_cast
  try simp only [z0_r_0_R, z0_tlog_same_mass_eq, z0_tlog_zero_mass_eq, z0_tlog_t_same_mass_eq, z0_tlog_t_zero_mass_eq, ofReal_energy, ofReal_bose, Complex.ofReal_mul, Complex.ofReal_neg]
  have hm : ∀ a b : ℂ, (L : ℂ) * a * (L * b) = L * L * (a * b) := fun a b => by ring
  have hs : ∀ a b : ℂ, (L : ℂ) * L * a - L * L * b = L * L * (a - b) := fun a b => by ring
  try simp only [energy_scale hL, bose_scale hL, hm, hs, ← mul_neg, neg_neg]
  try simp only [energy_scale hL, bose_scale hL, hm, hs, TL_scale hL0, TL_scale_zero hL0, R0_scale, R0_scale_zero, R0_scale_pz, R0_scale_pz_zero, PF_scale hL0, PF_scale_zero hL0, ZL_scale hL0, ZL_scale_zero hL0]
  field_simp
  try ring

theorem scale_thermal_zero_matsubara_i_0_0_l_i {L : ℝ} (hL : 0 < L) (q : ℝ) (p : ℝ) (beta : ℝ) :
    thermal.zero_matsubara.i_0_0_l_i (L * q) (L * p) (beta / L) = L ^ (1 : ℤ) * thermal.zero_matsubara.i_0_0_l_i q p beta := by
  have hL0 : (L : ℂ) ≠ 0 := Complex.ofReal_ne_zero.2 hL.ne'
  apply Complex.ofReal_injective
  simp only [thermal.zero_matsubara.i_0_0_l_i, r_0_eq, r_0_same_mass_eq, tlog_eq, tlog_same_mass_eq, tlog_zero_mass_eq, tlog_l_eq, tlog_l_same_mass_eq, tlog_l_zero_mass_eq, tlog_t_eq, tlog_t_same_mass_eq, tlog_t_zero_mass_eq, zm_r_0_eq, zm_r_0_same_mass_eq, z0_r_0_C, z0_r_0_eq, z0_tlog_eq, z0_tlog_t_eq, toC_complex, toC_real, ofR_complex, ofR_real, toC_ofR, toC_zero, toC_energy, toC_bose, map_mul, map_add, map_neg, map_sub, map_inv₀, map_div₀, map_zpow₀, energy_scale_real hL, fermi_double_scale hL, fermi_double_zero_temp_scale hL]
  try push_cast
  try simp only [z0_r_0_R, z0_tlog_same_mass_eq, z0_tlog_zero_mass_eq, z0_tlog_t_same_mass_eq, z0_tlog_t_zero_mass_eq, ofReal_energy, ofReal_bose, Complex.ofReal_mul, Complex.ofReal_neg]
  have hm : ∀ a b : ℂ, (L : ℂ) * a * (L * b) = L * L * (a * b) := fun a b => by ring
  have hs : ∀ a b : ℂ, (L : ℂ) * L * a - L * L * b = L * L * (a - b) := fun a b => by ring
  try simp only [energy_scale hL, bose_scale hL, hm, hs, ← mul_neg, neg_neg]
  try simp only [energy_scale hL, bose_scale hL, hm, hs, TL_scale hL0, TL_scale_zero hL0, R0_scale, R0_scale_zero, R0_scale_pz, R0_scale_pz_zero, PF_scale hL0, PF_scale_zero hL0, ZL_scale hL0, ZL_scale_zero hL0]
  field_simp
  try ring

theorem scale_thermal_zero_matsubara_i_m_m_t_i {L : ℝ} (hL : 0 < L) (q : ℝ) (p : ℝ) (m1 : T1) (m2 : T2) (beta : ℝ) :
    thermal.zero_matsubara.i_m_m_t_i (L * q) (L * p) (ofR L * m1) (ofR L * m2) (beta / L) = (L : ℂ) ^ (1 : ℤ) * thermal.zero_matsubara.i_m_m_t_i q p m1 m2 beta := by
  have hL0 : (L : ℂ) ≠ 0 := Complex.ofReal_ne_zero.2 hL.ne'
  rw [toC_thermal_zero_matsubara_i_m_m_t_i (L * q) (L * p) (ofR L * m1) (ofR L * m2) (beta / L), toC_thermal_zero_matsubara_i_m_m_t_i q p m1 m2 beta]
  simp only [thermal.zero_matsubara.i_m_m_t_i, r_0_eq, r_0_same_mass_eq, tlog_eq, tlog_same_mass_eq, tlog_zero_mass_eq, tlog_l_eq, tlog_l_same_mass_eq, tlog_l_zero_mass_eq, tlog_t_eq, tlog_t_same_mass_eq, tlog_t_zero_mass_eq, zm_r_0_eq, zm_r_0_same_mass_eq, z0_r_0_C, z0_r_0_eq, z0_tlog_eq, z0_tlog_t_eq, toC_complex, toC_real, ofR_complex, ofR_real, toC_ofR, toC_zero, toC_energy, toC_bose, map_mul, map_add, map_neg, map_sub, map_inv₀, map_div₀, map_zpow₀, energy_scale_real hL, fermi_double_scale hL, fermi_double_zero_temp_scale hL]
  try push_cast
  try simp only [z0_r_0_R, z0_tlog_same_mass_eq, z0_tlog_zero_mass_eq, z0_tlog_t_same_mass_eq, z0_tlog_t_zero_mass_eq, ofReal_energy, ofReal_bose, Complex.ofReal_mul, Complex.ofReal_neg]
  have hm : ∀ a b : ℂ, (L : ℂ) * a * (L * b) = L * L * (a * b) := fun a b => by ring
  have hs : ∀ a b : ℂ, (L : ℂ) * L * a - L * L * b = L * L * (a - b) := fun a b => by ring
  try simp only [energy_scale hL, bose_scale hL, hm, hs, ← mul_neg, neg_neg]
  try simp only [energy_scale hL, bose_scale hL, hm, hs, TL_scale hL0, TL_scale_zero hL0, R0_scale, R0_scale_zero, R0_scale_pz, R0_scale_pz_zero, PF_scale hL0, PF_scale_zero hL0, ZL_scale hL0, ZL_scale_zero hL0]
  field_simp
  try ring

theorem scale_thermal_zero_matsubara_i_m_m_t_i_same_mass {L : ℝ} (hL : 0 < L) (q : ℝ) (p : ℝ) (m : T) (beta : ℝ) :
    thermal.zero_matsubara.i_m_m_t_i_same_mass (L * q) (L * p) (ofR L * m) (beta / L) = (ofR L : T) ^ (1 : ℤ) * thermal.zero_matsubara.i_m_m_t_i_same_mass q p m beta := by
  have hL0 : (L : ℂ) ≠ 0 := Complex.ofReal_ne_zero.2 hL.ne'
  apply toC_injective
  simp only [map_mul, map_zpow₀, toC_ofR]
  refine (toC_thermal_zero_matsubara_i_m_m_t_i_same_mass (L * q) (L * p) (ofR L * m) (beta / L)).trans (Eq.trans ?_ (congrArg ((L : ℂ) ^ (1 : ℤ) * ·) (toC_thermal_zero_matsubara_i_m_m_t_i_same_mass q p m beta).symm))
  simp only [thermal.zero_matsubara.i_m_m_t_i_same_mass, r_0_eq, r_0_same_mass_eq, tlog_eq, tlog_same_mass_eq, tlog_zero_mass_eq, tlog_l_eq, tlog_l_same_mass_eq, tlog_l_zero_mass_eq, tlog_t_eq, tlog_t_same_mass_eq, tlog_t_zero_mass_eq, zm_r_0_eq, zm_r_0_same_mass_eq, z0_r_0_C, z0_r_0_eq, z0_tlog_eq, z0_tlog_t_eq, toC_complex, toC_real, ofR_complex, ofR_real, toC_ofR, toC_zero, toC_energy, toC_bose, map_mul, map_add, map_neg, map_sub, map_inv₀, map_div₀, map_zpow₀, energy_scale_real hL, fermi_double_scale hL, fermi_double_zero_temp_scale hL]
  try push_cast
  try simp only [z0_r_0_R, z0_tlog_same_mass_eq, z0_tlog_zero_mass_eq, z0_tlog_t_same_mass_eq, z0_tlog_t_zero_mass_eq, ofReal_energy, ofReal_bose, Complex.ofReal_mul, Complex.ofReal_neg]
  have hm : ∀ a b : ℂ, (L : ℂ) * a * (L * b) = L * L * (a * b) := fun a b => by ring
  have hs : ∀ a b : ℂ, (L : ℂ) * L * a - L * L * b = L * L * (a - b) := fun a b => by ring
  try simp only [energy_scale hL, bose_scale hL, hm, hs, ← mul_neg, neg_neg]
  try simp only [energy_scale hL, bose_scale hL, hm, hs, TL_scale hL0, TL_scale_zero hL0, R0_scale, R0_scale_zero, R0_scale_pz, R0_scale_pz_zero, PF_scale hL0, PF_scale_zero hL0, ZL_scale hL0, ZL_scale_zero hL0]
  field_simp
  try ring

theorem scale_thermal_zero_matsubara_i_m_0_t_i {L : ℝ} (hL : 0 < L) (q : ℝ) (p : ℝ) (m : T) (beta : ℝ) :
    thermal.zero_matsubara.i_m_0_t_i (L * q) (L * p) (ofR L * m) (beta / L) = (L : ℂ) ^ (1 : ℤ) * thermal.zero_matsubara.i_m_0_t_i q p m beta := by
  have hL0 : (L : ℂ) ≠ 0 := Complex.ofReal_ne_zero.2 hL.ne'
  rw [toC_thermal_zero_matsubara_i_m_0_t_i (L * q) (L * p) (ofR L * m) (beta / L), toC_thermal_zero_matsubara_i_m_0_t_i q p m beta]
  simp only [thermal.zero_matsubara.i_m_0_t_i, r_0_eq, r_0_same_mass_eq, tlog_eq, tlog_same_mass_eq, tlog_zero_mass_eq, tlog_l_eq, tlog_l_same_mass_eq, tlog_l_zero_mass_eq, tlog_t_eq, tlog_t_same_mass_eq, tlog_t_zero_mass_eq, zm_r_0_eq, zm_r_0_same_mass_eq, z0_r_0_C, z0_r_0_eq, z0_tlog_eq, z0_tlog_t_eq, toC_complex, toC_real, ofR_complex, ofR_real, toC_ofR, toC_zero, toC_energy, toC_bose, map_mul, map_add, map_neg, map_sub, map_inv₀, map_div₀, map_zpow₀, energy_scale_real hL, fermi_double_scale hL, fermi_double_zero_temp_scale hL]
  try push_cast
  try simp only [z0_r_0_R, z0_tlog_same_mass_eq, z0_tlog_zero_mass_eq, z0_tlog_t_same_mass_eq, z0_tlog_t_zero_mass_eq, ofReal_energy, ofReal_bose, Complex.ofReal_mul, Complex.ofReal_neg]
  have hm : ∀ a b : ℂ, (L : ℂ) * a * (L * b) = L * L * (a * b) := fun a b => by ring
  have hs : ∀ a b : ℂ, (L : ℂ) * L * a - L * L * b = L * L * (a - b) := fun a b => by ring
  try simp only [energy_scale hL, bose_scale hL, hm, hs, ← mul_neg, neg_neg]
  try simp only [energy_scale hL, bose_scale hL, hm, hs, TL_scale hL0, TL_scale_zero hL0, R0_scale, R0_scale_zero, R0_scale_pz, R0_scale_pz_zero, PF_scale hL0, PF_scale_zero hL0, ZL_scale hL0, ZL_scale_zero hL0]
  field_simp
  try ring

theorem scale_thermal_zero_matsubara_i_0_0_t_i {L : ℝ} (hL : 0 < L) (q : ℝ) (p : ℝ) (beta : ℝ) :
    thermal.zero_matsubara.i_0_0_t_i (L * q) (L * p) (beta / L) = L ^ (1 : ℤ) * thermal.zero_matsubara.i_0_0_t_i q p beta := by
  have hL0 : (L : ℂ) ≠ 0 := Complex.ofReal_ne_zero.2 hL.ne'
  apply Complex.ofReal_injective
  simp only [thermal.zero_matsubara.i_0_0_t_i, r_0_eq, r_0_same_mass_eq, tlog_eq, tlog_same_mass_eq, tlog_zero_mass_eq, tlog_l_eq, tlog_l_same_mass_eq, tlog_l_zero_mass_eq, tlog_t_eq, tlog_t_same_mass_eq, tlog_t_zero_mass_eq, zm_r_0_eq, zm_r_0_same_mass_eq, z0_r_0_C, z0_r_0_eq, z0_tlog_eq, z0_tlog_t_eq, toC_complex, toC_real, ofR_complex, ofR_real, toC_ofR, toC_zero, toC_energy, toC_bose, map_mul, map_add, map_neg, map_sub, map_inv₀, map_div₀, map_zpow₀, energy_scale_real hL, fermi_double_scale hL, fermi_double_zero_temp_scale hL]
  try push_cast
  try simp only [z0_r_0_R, z0_tlog_same_mass_eq, z0_tlog_zero_mass_eq, z0_tlog_t_same_mass_eq, z0_tlog_t_zero_mass_eq, ofReal_energy, ofReal_bose, Complex.ofReal_mul, Complex.ofReal_neg]
  have hm : ∀ a b : ℂ, (L : ℂ) * a * (L * b) = L * L * (a * b) := fun a b => by ring
  have hs : ∀ a b : ℂ, (L : ℂ) * L * a - L * L * b = L * L * (a - b) := fun a b => by ring
  try simp only [energy_scale hL, bose_scale hL, hm, hs, ← mul_neg, neg_neg]
  try simp only [energy_scale hL, bose_scale hL, hm, hs, TL_scale hL0, TL_scale_zero hL0, R0_scale, R0_scale_zero, R0_scale_pz, R0_scale_pz_zero, PF_scale hL0, PF_scale_zero hL0, ZL_scale hL0, ZL_scale_zero hL0]
  field_simp
  try ring

theorem scale_thermal_zero_matsubara_d_i_m_m_i {L : ℝ} (hL : 0 < L) (q : ℝ) (p : ℝ) (m1 : T1) (m2 : T2) (beta : ℝ) :
    thermal.zero_matsubara.d_i_m_m_i (L * q) (L * p) (ofR L * m1) (ofR L * m2) (beta / L) = (L : ℂ) ^ (-3 : ℤ) * thermal.zero_matsubara.d_i_m_m_i q p m1 m2 beta := by
  have hL0 : (L : ℂ) ≠ 0 := Complex.ofReal_ne_zero.2 hL.ne'
  rw [toC_thermal_zero_matsubara_d_i_m_m_i (L * q) (L * p) (ofR L * m1) (ofR L * m2) (beta / L), toC_thermal_zero_matsubara_d_i_m_m_i q p m1 m2 beta]
  simp only [thermal.zero_matsubara.d_i_m_m_i, r_0_eq, r_0_same_mass_eq, tlog_eq, tlog_same_mass_eq, tlog_zero_mass_eq, tlog_l_eq, tlog_l_same_mass_eq, tlog_l_zero_mass_eq, tlog_t_eq, tlog_t_same_mass_eq, tlog_t_zero_mass_eq, zm_r_0_eq, zm_r_0_same_mass_eq, z0_r_0_C, z0_r_0_eq, z0_tlog_eq, z0_tlog_t_eq, toC_complex, toC_real, ofR_complex, ofR_real, toC_ofR, toC_zero, toC_energy, toC_bose, map_mul, map_add, map_neg, map_sub, map_inv₀, map_div₀, map_zpow₀, energy_scale_real hL, fermi_double_scale hL, fermi_double_zero_temp_scale hL]
  try push_cast
  try simp only [z0_r_0_R, z0_tlog_same_mass_eq, z0_tlog_zero_mass_eq, z0_tlog_t_same_mass_eq, z0_tlog_t_zero_mass_eq, ofReal_energy, ofReal_bose, Complex.ofReal_mul, Complex.ofReal_neg]
  have hm : ∀ a b : ℂ, (L : ℂ) * a * (L * b) = L * L * (a * b) := fun a b => by ring
  have hs : ∀ a b : ℂ, (L : ℂ) * L * a - L * L * b = L * L * (a - b) := fun a b => by ring
  try simp only [energy_scale hL, bose_scale hL, hm, hs, ← mul_neg, neg_neg]
  try simp only [energy_scale hL, bose_scale hL, hm, hs, TL_scale hL0, TL_scale_zero hL0, R0_scale, R0_scale_zero, R0_scale_pz, R0_scale_pz_zero, PF_scale hL0, PF_scale_zero hL0, ZL_scale hL0, ZL_scale_zero hL0]
  field_simp
  try ring

theorem scale_thermal_zero_matsubara_d_i_m_m_i_same_mass {L : ℝ} (hL : 0 < L) (q : ℝ) (p : ℝ) (m : T) (beta : ℝ) :
    thermal.zero_matsubara.d_i_m_m_i_same_mass (L * q) (L * p) (ofR L * m) (beta / L) = (ofR L : T) ^ (-3 : ℤ) * thermal.zero_matsubara.d_i_m_m_i_same_mass q p m beta := by
  have hL0 : (L : ℂ) ≠ 0 := Complex.ofReal_ne_zero.2 hL.ne'
  apply toC_injective
  simp only [map_mul, map_zpow₀, toC_ofR]
  refine (toC_thermal_zero_matsubara_d_i_m_m_i_same_mass (L * q) (L * p) (ofR L * m) (beta / L)).trans (Eq.trans ?_ (congrArg ((L : ℂ) ^ (-3 : ℤ) * ·) (toC_thermal_zero_matsubara_d_i_m_m_i_same_mass q p m beta).symm))
  simp only [thermal.zero_matsubara.d_i_m_m_i_same_mass, r_0_eq, r_0_same_mass_eq, tlog_eq, tlog_same_mass_eq, tlog_zero_mass_eq, tlog_l_eq, tlog_l_same_mass_eq, tlog_l_zero_mass_eq, tlog_t_eq, tlog_t_same_mass_eq, tlog_t_zero_mass_eq, zm_r_0_eq, zm_r_0_same_mass_eq, z0_r_0_C, z0_r_0_eq, z0_tlog_eq, z0_tlog_t_eq, toC_complex, toC_real, ofR_complex, ofR_real, toC_ofR, toC_zero, toC_energy, toC_bose, map_mul, map_add, map_neg, map_sub, map_inv₀, map_div₀, map_zpow₀, energy_scale_real hL, fermi_double_scale hL, fermi_double_zero_temp_scale hL]
  try push_cast
  try simp only [z0_r_0_R, z0_tlog_same_mass_eq, z0_tlog_zero_mass_eq, z0_tlog_t_same_mass_eq, z0_tlog_t_zero_mass_eq, ofReal_energy, ofReal_bose, Complex.ofReal_mul, Complex.ofReal_neg]
  have hm : ∀ a b : ℂ, (L : ℂ) * a * (L * b) = L * L * (a * b) := fun a b => by ring
  have hs : ∀ a b : ℂ, (L : ℂ) * L * a - L * L * b = L * L * (a - b) := fun a b => by ring
  try simp only [energy_scale hL, bose_scale hL, hm, hs, ← mul_neg, neg_neg]
  try simp only [energy_scale hL, bose_scale hL, hm, hs, TL_scale hL0, TL_scale_zero hL0, R0_scale, R0_scale_zero, R0_scale_pz, R0_scale_pz_zero, PF_scale hL0, PF_scale_zero hL0, ZL_scale hL0, ZL_scale_zero hL0]
  field_simp
  try ring

theorem scale_thermal_zero_matsubara_d_i_m_0_i {L : ℝ} (hL : 0 < L) (q : ℝ) (p : ℝ) (m : T) (beta : ℝ) :
    thermal.zero_matsubara.d_i_m_0_i (L * q) (L * p) (ofR L * m) (beta / L) = (ofR L : T) ^ (-3 : ℤ) * thermal.zero_matsubara.d_i_m_0_i q p m beta := by
  have hL0 : (L : ℂ) ≠ 0 := Complex.ofReal_ne_zero.2 hL.ne'
  apply toC_injective
  simp only [map_mul, map_zpow₀, toC_ofR]
  refine (toC_thermal_zero_matsubara_d_i_m_0_i (L * q) (L * p) (ofR L * m) (beta / L)).trans (Eq.trans ?_ (congrArg ((L : ℂ) ^ (-3 : ℤ) * ·) (toC_thermal_zero_matsubara_d_i_m_0_i q p m beta).symm))
  simp only [thermal.zero_matsubara.d_i_m_0_i, r_0_eq, r_0_same_mass_eq, tlog_eq, tlog_same_mass_eq, tlog_zero_mass_eq, tlog_l_eq, tlog_l_same_mass_eq, tlog_l_zero_mass_eq, tlog_t_eq, tlog_t_same_mass_eq, tlog_t_zero_mass_eq, zm_r_0_eq, zm_r_0_same_mass_eq, z0_r_0_C, z0_r_0_eq, z0_tlog_eq, z0_tlog_t_eq, toC_complex, toC_real, ofR_complex, ofR_real, toC_ofR, toC_zero, toC_energy, toC_bose, map_mul, map_add, map_neg, map_sub, map_inv₀, map_div₀, map_zpow₀, energy_scale_real hL, fermi_double_scale hL, fermi_double_zero_temp_scale hL]
  try push_cast
  try simp only [z0_r_0_R, z0_tlog_same_mass_eq, z0_tlog_zero_mass_eq, z0_tlog_t_same_mass_eq, z0_tlog_t_zero_mass_eq, ofReal_energy, ofReal_bose, Complex.ofReal_mul, Complex.ofReal_neg]
  have hm : ∀ a b : ℂ, (L : ℂ) * a * (L * b) = L * L * (a * b) := fun a b => by ring
  have hs : ∀ a b : ℂ, (L : ℂ) * L * a - L * L * b = L * L * (a - b) := fun a b => by ring
  try simp only [energy_scale hL, bose_scale hL, hm, hs, ← mul_neg, neg_neg]
  try simp only [energy_scale hL, bose_scale hL, hm, hs, TL_scale hL0, TL_scale_zero hL0, R0_scale, R0_scale_zero, R0_scale_pz, R0_scale_pz_zero, PF_scale hL0, PF_scale_zero hL0, ZL_scale hL0, ZL_scale_zero hL0]
  field_simp
  try ring

theorem scale_thermal_zero_matsubara_d_i_0_0_i {L : ℝ} (hL : 0 < L) (q : ℝ) (p : ℝ) (beta : ℝ) :
    thermal.zero_matsubara.d_i_0_0_i (L * q) (L * p) (beta / L) = L ^ (-3 : ℤ) * thermal.zero_matsubara.d_i_0_0_i q p beta := by
  have hL0 : (L : ℂ) ≠ 0 := Complex.ofReal_ne_zero.2 hL.ne'
  apply Complex.ofReal_injective
  simp only [thermal.zero_matsubara.d_i_0_0_i, r_0_eq, r_0_same_mass_eq, tlog_eq, tlog_same_mass_eq, tlog_zero_mass_eq, tlog_l_eq, tlog_l_same_mass_eq, tlog_l_zero_mass_eq, tlog_t_eq, tlog_t_same_mass_eq, tlog_t_zero_mass_eq, zm_r_0_eq, zm_r_0_same_mass_eq, z0_r_0_C, z0_r_0_eq, z0_tlog_eq, z0_tlog_t_eq, toC_complex, toC_real, ofR_complex, ofR_real, toC_ofR, toC_zero, toC_energy, toC_bose, map_mul, map_add, map_neg, map_sub, map_inv₀, map_div₀, map_zpow₀, energy_scale_real hL, fermi_double_scale hL, fermi_double_zero_temp_scale hL]
  try push_cast
  try simp only [z0_r_0_R, z0_tlog_same_mass_eq, z0_tlog_zero_mass_eq, z0_tlog_t_same_mass_eq, z0_tlog_t_zero_mass_eq, ofReal_energy, ofReal_bose, Complex.ofReal_mul, Complex.ofReal_neg]
  have hm : ∀ a b : ℂ, (L : ℂ) * a * (L * b) = L * L * (a * b) := fun a b => by ring
  have hs : ∀ a b : ℂ, (L : ℂ) * L * a - L * L * b = L * L * (a - b) := fun a b => by ring
  try simp only [energy_scale hL, bose_scale hL, hm, hs, ← mul_neg, neg_neg]
  try simp only [energy_scale hL, bose_scale hL, hm, hs, TL_scale hL0, TL_scale_zero hL0, R0_scale, R0_scale_zero, R0_scale_pz, R0_scale_pz_zero, PF_scale hL0, PF_scale_zero hL0, ZL_scale hL0, ZL_scale_zero hL0]
  field_simp
  try ring

theorem scale_thermal_zero_matsubara_d_i_m_m_l_i {L : ℝ} (hL : 0 < L) (q : ℝ) (p : ℝ) (m1 : T1) (m2 : T2) (beta : ℝ) :
    thermal.zero_matsubara.d_i_m_m_l_i (L * q) (L * p) (ofR L * m1) (ofR L * m2) (beta / L) = (L : ℂ) ^ (-1 : ℤ) * thermal.zero_matsubara.d_i_m_m_l_i q p m1 m2 beta := by
  have hL0 : (L : ℂ) ≠ 0 := Complex.ofReal_ne_zero.2 hL.ne'
  rw [toC_thermal_zero_matsubara_d_i_m_m_l_i (L * q) (L * p) (ofR L * m1) (ofR L * m2) (beta / L), toC_thermal_zero_matsubara_d_i_m_m_l_i q p m1 m2 beta]
  simp only [thermal.zero_matsubara.d_i_m_m_l_i, r_0_eq, r_0_same_mass_eq, tlog_eq, tlog_same_mass_eq, tlog_zero_mass_eq, tlog_l_eq, tlog_l_same_mass_eq, tlog_l_zero_mass_eq, tlog_t_eq, tlog_t_same_mass_eq, tlog_t_zero_mass_eq, zm_r_0_eq, zm_r_0_same_mass_eq, z0_r_0_C, z0_r_0_eq, z0_tlog_eq, z0_tlog_t_eq, toC_complex, toC_real, ofR_complex, ofR_real, toC_ofR, toC_zero, toC_energy, toC_bose, map_mul, map_add, map_neg, map_sub, map_inv₀, map_div₀, map_zpow₀, energy_scale_real hL, fermi_double_scale hL, fermi_double_zero_temp_scale hL]
  try push_cast
  try simp only [z0_r_0_R, z0_tlog_same_mass_eq, z0_tlog_zero_mass_eq, z0_tlog_t_same_mass_eq, z0_tlog_t_zero_mass_eq, ofReal_energy, ofReal_bose, Complex.ofReal_mul, Complex.ofReal_neg]
  have hm : ∀ a b : ℂ, (L : ℂ) * a * (L * b) = L * L * (a * b) := fun a b => by ring
  have hs : ∀ a b : ℂ, (L : ℂ) * L * a - L * L * b = L * L * (a - b) := fun a b => by ring
  try simp only [energy_scale hL, bose_scale hL, hm, hs, ← mul_neg, neg_neg]
  try simp only [energy_scale hL, bose_scale hL, hm, hs, TL_scale hL0, TL_scale_zero hL0, R0_scale, R0_scale_zero, R0_scale_pz, R0_scale_pz_zero, PF_scale hL0, PF_scale_zero hL0, ZL_scale hL0, ZL_scale_zero hL0]
  field_simp
  try ring

theorem scale_thermal_zero_matsubara_d_i_m_m_l_i_same_mass {L : ℝ} (hL : 0 < L) (q : ℝ) (p : ℝ) (m : T) (beta : ℝ) :
    thermal.zero_matsubara.d_i_m_m_l_i_same_mass (L * q) (L * p) (ofR L * m) (beta / L) = (ofR L : T) ^ (-1 : ℤ) * thermal.zero_matsubara.d_i_m_m_l_i_same_mass q p m beta := by
  have hL0 : (L : ℂ) ≠ 0 := Complex.ofReal_ne_zero.2 hL.ne'
  apply toC_injective
  simp only [map_mul, map_zpow₀, toC_ofR]
  refine (toC_thermal_zero_matsubara_d_i_m_m_l_i_same_mass (L * q) (L * p) (ofR L * m) (beta / L)).trans (Eq.trans ?_ (congrArg ((L : ℂ) ^ (-1 : ℤ) * ·) (toC_thermal_zero_matsubara_d_i_m_m_l_i_same_mass q p m beta).symm))
  simp only [thermal.zero_matsubara.d_i_m_m_l_i_same_mass, r_0_eq, r_0_same_mass_eq, tlog_eq, tlog_same_mass_eq, tlog_zero_mass_eq, tlog_l_eq, tlog_l_same_mass_eq, tlog_l_zero_mass_eq, tlog_t_eq, tlog_t_same_mass_eq, tlog_t_zero_mass_eq, zm_r_0_eq, zm_r_0_same_mass_eq, z0_r_0_C, z0_r_0_eq, z0_tlog_eq, z0_tlog_t_eq, toC_complex, toC_real, ofR_complex, ofR_real, toC_ofR, toC_zero, toC_energy, toC_bose, map_mul, map_add, map_neg, map_sub, map_inv₀, map_div₀, map_zpow₀, energy_scale_real hL, fermi_double_scale hL, fermi_double_zero_temp_scale hL]
  try push_cast
  try simp only [z0_r_0_R, z0_tlog_same_mass_eq, z0_tlog_zero_mass_eq, z0_tlog_t_same_mass_eq, z0_tlog_t_zero_mass_eq, ofReal_energy, ofReal_bose, Complex.ofReal_mul, Complex.ofReal_neg]
  have hm : ∀ a b : ℂ, (L : ℂ) * a * (L * b) = L * L * (a * b) := fun a b => by ring
  have hs : ∀ a b : ℂ, (L : ℂ) * L * a - L * L * b = L * L * (a - b) := fun a b => by ring
  try simp only [energy_scale hL, bose_scale hL, hm, hs, ← mul_neg, neg_neg]
  try simp only [energy_scale hL, bose_scale hL, hm, hs, TL_scale hL0, TL_scale_zero hL0, R0_scale, R0_scale_zero, R0_scale_pz, R0_scale_pz_zero, PF_scale hL0, PF_scale_zero hL0, ZL_scale hL0, ZL_scale_zero hL0]
  field_simp
  try ring

theorem scale_thermal_zero_matsubara_d_i_m_0_l_i {L : ℝ} (hL : 0 < L) (q : ℝ) (p : ℝ) (m : T) (beta : ℝ) :
    thermal.zero_matsubara.d_i_m_0_l_i (L * q) (L * p) (ofR L * m) (beta / L) = (ofR L : T) ^ (-1 : ℤ) * thermal.zero_matsubara.d_i_m_0_l_i q p m beta := by
  have hL0 : (L : ℂ) ≠ 0 := Complex.ofReal_ne_zero.2 hL.ne'
  apply toC_injective
  simp only [map_mul, map_zpow₀, toC_ofR]
  refine (toC_thermal_zero_matsubara_d_i_m_0_l_i (L * q) (L * p) (ofR L * m) (beta / L)).trans (Eq.trans ?_ (congrArg ((L : ℂ) ^ (-1 : ℤ) * ·) (toC_thermal_zero_matsubara_d_i_m_0_l_i q p m beta).symm))
  simp only [thermal.zero_matsubara.d_i_m_0_l_i, r_0_eq, r_0_same_mass_eq, tlog_eq, tlog_same_mass_eq, tlog_zero_mass_eq, tlog_l_eq, tlog_l_same_mass_eq, tlog_l_zero_mass_eq, tlog_t_eq, tlog_t_same_mass_eq, tlog_t_zero_mass_eq, zm_r_0_eq, zm_r_0_same_mass_eq, z0_r_0_C, z0_r_0_eq, z0_tlog_eq, z0_tlog_t_eq, toC_complex, toC_real, ofR_complex, ofR_real, toC_ofR, toC_zero, toC_energy, toC_bose, map_mul, map_add, map_neg, map_sub, map_inv₀, map_div₀, map_zpow₀, energy_scale_real hL, fermi_double_scale hL, fermi_double_zero_temp_scale hL]
  try push_cast
  try simp only [z0_r_0_R, z0_tlog_same_mass_eq, z0_tlog_zero_mass_eq, z0_tlog_t_same_mass_eq, z0_tlog_t_zero_mass_eq, ofReal_energy, ofReal_bose, Complex.ofReal_mul, Complex.ofReal_neg]
  have hm : ∀ a b : ℂ, (L : ℂ) * a * (L * b) = L * L * (a * b) := fun a b => by ring
  have hs : ∀ a b : ℂ, (L : ℂ) * L * a - L * L * b = L * L * (a - b) := fun a b => by ring
  try simp only [energy_scale hL, bose_scale hL, hm, hs, ← mul_neg, neg_neg]
  try simp only [energy_scale hL, bose_scale hL, hm, hs, TL_scale hL0, TL_scale_zero hL0, R0_scale, R0_scale_zero, R0_scale_pz, R0_scale_pz_zero, PF_scale hL0, PF_scale_zero hL0, ZL_scale hL0, ZL_scale_zero hL0]
  field_simp
  try ring

theorem scale_thermal_zero_matsubara_d_i_0_0_l_i {L : ℝ} (hL : 0 < L) (q : ℝ) (p : ℝ) (beta : ℝ) :
    thermal.zero_matsubara.d_i_0_0_l_i (L * q) (L * p) (beta / L) = L ^ (-1 : ℤ) * thermal.zero_matsubara.d_i_0_0_l_i q p beta := by
  have hL0 : (L : ℂ) ≠ 0 := Complex.ofReal_ne_zero.2 hL.ne'
  apply Complex.ofReal_injective
  simp only [thermal.zero_matsubara.d_i_0_0_l_i, r_0_eq, r_0_same_mass_eq, tlog_eq, tlog_same_mass_eq, tlog_zero_mass_eq, tlog_l_eq, tlog_l_same_mass_eq, tlog_l_zero_mass_eq, tlog_t_eq, tlog_t_same_mass_eq, tlog_t_zero_mass_eq, zm_r_0_eq, zm_r_0_same_mass_eq, z0_r_0_C, z0_r_0_eq, z0_tlog_eq, z0_tlog_t_eq, toC_complex, toC_real, ofR_complex, ofR_real, toC_ofR, toC_zero, toC_energy, toC_bose, map_mul, map_add, map_neg, map_sub, map_inv₀, map_div₀, map_zpow₀, energy_scale_real hL, fermi_double_scale hL, fermi_double_zero_temp_scale hL]
  try push_cast
  try simp only [z0_r_0_R, z0_tlog_same_mass_eq, z0_tlog_zero_mass_eq, z0_tlog_t_same_mass_eq, z0_tlog_t_zero_mass_eq, ofReal_energy, ofReal_bose, Complex.ofReal_mul, Complex.ofReal_neg]
  have hm : ∀ a b : ℂ, (L : ℂ) * a * (L * b) = L * L * (a * b) := fun a b => by ring
  have hs : ∀ a b : ℂ, (L : ℂ) * L * a - L * L * b = L * L * (a - b) := fun a b => by ring
  try simp only [energy_scale hL, bose_scale hL, hm, hs, ← mul_neg, neg_neg]
  try simp only [energy_scale hL, bose_scale hL, hm, hs, TL_scale hL0, TL_scale_zero hL0, R0_scale, R0_scale_zero, R0_scale_pz, R0_scale_pz_zero, PF_scale hL0, PF_scale_zero hL0, ZL_scale hL0, ZL_scale_zero hL0]
  field_simp
  try ring

theorem scale_thermal_zero_matsubara_d_i_m_m_t_i {L : ℝ} (hL : 0 < L) (q : ℝ) (p : ℝ) (m1 : T1) (m2 : T2) (beta : ℝ) :
    thermal.zero_matsubara.d_i_m_m_t_i (L * q) (L * p) (ofR L * m1) (ofR L * m2) (beta / L) = (L : ℂ) ^ (-1 : ℤ) * thermal.zero_matsubara.d_i_m_m_t_i q p m1 m2 beta := by
  have hL0 : (L : ℂ) ≠ 0 := Complex.ofReal_ne_zero.2 hL.ne'
  rw [toC_thermal_zero_matsubara_d_i_m_m_t_i (L * q) (L * p) (ofR L * m1) (ofR L * m2) (beta / L), toC_thermal_zero_matsubara_d_i_m_m_t_i q p m1 m2 beta]
  simp only [thermal.zero_matsubara.d_i_m_m_t_i, r_0_eq, r_0_same_mass_eq, tlog_eq, tlog_same_mass_eq, tlog_zero_mass_eq, tlog_l_eq, tlog_l_same_mass_eq, tlog_l_zero_mass_eq, tlog_t_eq, tlog_t_same_mass_eq, tlog_t_zero_mass_eq, zm_r_0_eq, zm_r_0_same_mass_eq, z0_r_0_C, z0_r_0_eq, z0_tlog_eq, z0_tlog_t_eq, toC_complex, toC_real, ofR_complex, ofR_real, toC_ofR, toC_zero, toC_energy, toC_bose, map_mul, map_add, map_neg, map_sub, map_inv₀, map_div₀, map_zpow₀, energy_scale_real hL, fermi_double_scale hL, fermi_double_zero_temp_scale hL]
  try push_cast
  try simp only [z0_r_0_R, z0_tlog_same_mass_eq, z0_tlog_zero_mass_eq, z0_tlog_t_same_mass_eq, z0_tlog_t_zero_mass_eq, ofReal_energy, ofReal_bose, Complex.ofReal_mul, Complex.ofReal_neg]
  have hm : ∀ a b : ℂ, (L : ℂ) * a * (L * b) = L * L * (a * b) := fun a b => by ring
  have hs : ∀ a b : ℂ, (L : ℂ) * L * a - L * L * b = L * L * (a - b) := fun a b => by ring
  try simp only [energy_scale hL, bose_scale hL, hm, hs, ← mul_neg, neg_neg]
  try simp only [energy_scale hL, bose_scale hL, hm, hs, TL_scale hL0, TL_scale_zero hL0, R0_scale, R0_scale_zero, R0_scale_pz, R0_scale_pz_zero, PF_scale hL0, PF_scale_zero hL0, ZL_scale hL0, ZL_scale_zero hL0]
  field_simp
  try ring

theorem scale_thermal_zero_matsubara_d_i_m_m_t_i_same_mass {L : ℝ} (hL : 0 < L) (q : ℝ) (p : ℝ) (m : T) (beta : ℝ) :
    thermal.zero_matsubara.d_i_m_m_t_i_same_mass (L * q) (L * p) (ofR L * m) (beta / L) = (ofR L : T) ^ (-1 : ℤ) * thermal.zero_matsubara.d_i_m_m_t_i_same_mass q p m beta := by
  have hL0 : (L : ℂ) ≠ 0 := Complex.ofReal_ne_zero.2 hL.ne'
  apply toC_injective
  simp only [map_mul, map_zpow₀, toC_ofR]
  refine (toC_thermal_zero_matsubara_d_i_m_m_t_i_same_mass (L * q) (L * p) (ofR L * m) (beta / L)).trans (Eq.trans ?_ (congrArg ((L : ℂ) ^ (-1 : ℤ) * ·) (toC_thermal_zero_matsubara_d_i_m_m_t_i_same_mass q p m beta).symm))
  simp only [thermal.zero_matsubara.d_i_m_m_t_i_same_mass, r_0_eq, r_0_same_mass_eq, tlog_eq, tlog_same_mass_eq, tlog_zero_mass_eq, tlog_l_eq, tlog_l_same_mass_eq, tlog_l_zero_mass_eq, tlog_t_eq, tlog_t_same_mass_eq, tlog_t_zero_mass_eq, zm_r_0_eq, zm_r_0_same_mass_eq, z0_r_0_C, z0_r_0_eq, z0_tlog_eq, z0_tlog_t_eq, toC_complex, toC_real, ofR_complex, ofR_real, toC_ofR, toC_zero, toC_energy, toC_bose, map_mul, map_add, map_neg, map_sub, map_inv₀, map_div₀, map_zpow₀, energy_scale_real hL, fermi_double_scale hL, fermi_double_zero_temp_scale hL]
  try push_cast
  try simp only [z0_r_0_R, z0_tlog_same_mass_eq, z0_tlog_zero_mass_eq, z0_tlog_t_same_mass_eq, z0_tlog_t_zero_mass_eq, ofReal_energy, ofReal_bose, Complex.ofReal_mul, Complex.ofReal_neg]
  have hm : ∀ a b : ℂ, (L : ℂ) * a * (L * b) = L * L * (a * b) := fun a b => by ring
  have hs : ∀ a b : ℂ, (L : ℂ) * L * a - L * L * b = L * L * (a - b) := fun a b => by ring
  try simp only [energy_scale hL, bose_scale hL, hm, hs, ← mul_neg, neg_neg]
  try simp only [energy_scale hL, bose_scale hL, hm, hs, TL_scale hL0, TL_scale_zero hL0, R0_scale, R0_scale_zero, R0_scale_pz, R0_scale_pz_zero, PF_scale hL0, PF_scale_zero hL0, ZL_scale hL0, ZL_scale_zero hL0]
  field_simp
  try ring

theorem scale_thermal_zero_matsubara_d_i_m_0_t_i {L : ℝ} (hL : 0 < L) (q : ℝ) (p : ℝ) (m : T) (beta : ℝ) :
    thermal.zero_matsubara.d_i_m_0_t_i (L * q) (L * p) (ofR L * m) (beta / L) = (L : ℂ) ^ (-1 : ℤ) * thermal.zero_matsubara.d_i_m_0_t_i q p m beta := by
  have hL0 : (L : ℂ) ≠ 0 := Complex.ofReal_ne_zero.2 hL.ne'
  rw [toC_thermal_zero_matsubara_d_i_m_0_t_i (L * q) (L * p) (ofR L * m) (beta / L), toC_thermal_zero_matsubara_d_i_m_0_t_i q p m beta]
  simp only [thermal.zero_matsubara.d_i_m_0_t_i, r_0_eq, r_0_same_mass_eq, tlog_eq, tlog_same_mass_eq, tlog_zero_mass_eq, tlog_l_eq, tlog_l_same_mass_eq, tlog_l_zero_mass_eq, tlog_t_eq, tlog_t_same_mass_eq, tlog_t_zero_mass_eq, zm_r_0_eq, zm_r_0_same_mass_eq, z0_r_0_C, z0_r_0_eq, z0_tlog_eq, z0_tlog_t_eq, toC_complex, toC_real, ofR_complex, ofR_real, toC_ofR, toC_zero, toC_energy, toC_bose, map_mul, map_add, map_neg, map_sub, map_inv₀, map_div₀, map_zpow₀, energy_scale_real hL, fermi_double_scale hL, fermi_double_zero_temp_scale hL]
  try push_cast
  try simp only [z0_r_0_R, z0_tlog_same_mass_eq, z0_tlog_zero_mass_eq, z0_tlog_t_same_mass_eq, z0_tlog_t_zero_mass_eq, ofReal_energy, ofReal_bose, Complex.ofReal_mul, Complex.ofReal_neg]
  have hm : ∀ a b : ℂ, (L : ℂ) * a * (L * b) = L * L * (a * b) := fun a b => by ring
  have hs : ∀ a b : ℂ, (L : ℂ) * L * a - L * L * b = L * L * (a - b) := fun a b => by ring
  try simp only [energy_scale hL, bose_scale hL, hm, hs, ← mul_neg, neg_neg]
  try simp only [energy_scale hL, bose_scale hL, hm, hs, TL_scale hL0, TL_scale_zero hL0, R0_scale, R0_scale_zero, R0_scale_pz, R0_scale_pz_zero, PF_scale hL0, PF_scale_zero hL0, ZL_scale hL0, ZL_scale_zero hL0]
  field_simp
  try ring

theorem scale_thermal_zero_matsubara_d_i_0_0_t_i {L : ℝ} (hL : 0 < L) (q : ℝ) (p : ℝ) (beta : ℝ) :
    thermal.zero_matsubara.d_i_0_0_t_i (L * q) (L * p) (beta / L) = L ^ (-1 : ℤ) * thermal.zero_matsubara.d_i_0_0_t_i q p beta := by
  have hL0 : (L : ℂ) ≠ 0 := Complex.ofReal_ne_zero.2 hL.ne'
  apply Complex.ofReal_injective
  simp only [thermal.zero_matsubara.d_i_0_0_t_i, r_0_eq, r_0_same_mass_eq, tlog_eq, tlog_same_mass_eq, tlog_zero_mass_eq, tlog_l_eq, tlog_l_same_mass_eq, tlog_l_zero_mass_eq, tlog_t_eq, tlog_t_same_mass_eq, tlog_t_zero_mass_eq, zm_r_0_eq, zm_r_0_same_mass_eq, z0_r_0_C, z0_r_0_eq, z0_tlog_eq, z0_tlog_t_eq, toC_complex, toC_real, ofR_complex, ofR_real, toC_ofR, toC_zero, toC_energy, toC_bose, map_mul, map_add, map_neg, map_sub, map_inv₀, map_div₀, map_zpow₀, energy_scale_real hL, fermi_double_scale hL, fermi_double_zero_temp_scale hL]
  try push_cast
  try simp only [z0_r_0_R, z0_tlog_same_mass_eq, z0_tlog_zero_mass_eq, z0_tlog_t_same_mass_eq, z0_tlog_t_zero_mass_eq, ofReal_energy, ofReal_bose, Complex.ofReal_mul, Complex.ofReal_neg]
  have hm : ∀ a b : ℂ, (L : ℂ) * a * (L * b) = L * L * (a * b) := fun a b => by ring
  have hs : ∀ a b : ℂ, (L : ℂ) * L * a - L * L * b = L * L * (a - b) := fun a b => by ring
  try simp only [energy_scale hL, bose_scale hL, hm, hs, ← mul_neg, neg_neg]
  try simp only [energy_scale hL, bose_scale hL, hm, hs, TL_scale hL0, TL_scale_zero hL0, R0_scale, R0_scale_zero, R0_scale_pz, R0_scale_pz_zero, PF_scale hL0, PF_scale_zero hL0, ZL_scale hL0, ZL_scale_zero hL0]
  field_simp
  try ring

theorem scale_thermal_j_m_i_inst {L : ℝ} (hL : 0 < L) (q : ℝ) (m : ℝ) (beta : ℝ) :
    thermal.j_m_i (L * q) (L * m) (beta / L) = L ^ (1 : ℤ) * thermal.j_m_i q m beta := by
  simpa only [ofR_complex, ofR_real] using scale_thermal_j_m_i hL q m beta

theorem scale_thermal_j_m_l_i_inst {L : ℝ} (hL : 0 < L) (q : ℝ) (m : ℝ) (beta : ℝ) :
    thermal.j_m_l_i (L * q) (L * m) (beta / L) = L ^ (3 : ℤ) * thermal.j_m_l_i q m beta := by
  simpa only [ofR_complex, ofR_real] using scale_thermal_j_m_l_i hL q m beta

theorem scale_thermal_j_m_t_i_inst {L : ℝ} (hL : 0 < L) (q : ℝ) (m : ℝ) (beta : ℝ) :
    thermal.j_m_t_i (L * q) (L * m) (beta / L) = L ^ (3 : ℤ) * thermal.j_m_t_i q m beta := by
  simpa only [ofR_complex, ofR_real] using scale_thermal_j_m_t_i hL q m beta

theorem scale_thermal_i_m_m_i_inst {L : ℝ} (hL : 0 < L) (q : ℝ) (om : ℂ) (p : ℝ) (m1 : ℝ) (m2 : ℝ) (beta : ℝ) :
    thermal.i_m_m_i (L * q) ((L : ℂ) * om) (L * p) (L * m1) (L * m2) (beta / L) = (L : ℂ) ^ (-1 : ℤ) * thermal.i_m_m_i q om p m1 m2 beta := by
  simpa only [ofR_complex, ofR_real] using scale_thermal_i_m_m_i hL q om p m1 m2 beta

theorem scale_thermal_i_m_m_i_same_mass_inst {L : ℝ} (hL : 0 < L) (q : ℝ) (om : ℂ) (p : ℝ) (m : ℝ) (beta : ℝ) :
    thermal.i_m_m_i_same_mass (L * q) ((L : ℂ) * om) (L * p) (L * m) (beta / L) = (L : ℂ) ^ (-1 : ℤ) * thermal.i_m_m_i_same_mass q om p m beta := by
  simpa only [ofR_complex, ofR_real] using scale_thermal_i_m_m_i_same_mass hL q om p m beta

theorem scale_thermal_i_m_m_i_same_mass_instp {L : ℝ} (hL : 0 < L) (q : ℝ) (om : ℂ) (p : ℂ) (m : ℝ) (beta : ℝ) :
    thermal.i_m_m_i_same_mass (L * q) ((L : ℂ) * om) ((L : ℂ) * p) (L * m) (beta / L) = (L : ℂ) ^ (-1 : ℤ) * thermal.i_m_m_i_same_mass q om p m beta := by
  simpa only [ofR_complex, ofR_real] using scale_thermal_i_m_m_i_same_mass hL q om p m beta

theorem scale_thermal_i_m_0_i_inst {L : ℝ} (hL : 0 < L) (q : ℝ) (om : ℂ) (p : ℝ) (m : ℝ) (beta : ℝ) :
    thermal.i_m_0_i (L * q) ((L : ℂ) * om) (L * p) (L * m) (beta / L) = (L : ℂ) ^ (-1 : ℤ) * thermal.i_m_0_i q om p m beta := by
  simpa only [ofR_complex, ofR_real] using scale_thermal_i_m_0_i hL q om p m beta

theorem scale_thermal_i_m_0_i_instp {L : ℝ} (hL : 0 < L) (q : ℝ) (om : ℂ) (p : ℂ) (m : ℝ) (beta : ℝ) :
    thermal.i_m_0_i (L * q) ((L : ℂ) * om) ((L : ℂ) * p) (L * m) (beta / L) = (L : ℂ) ^ (-1 : ℤ) * thermal.i_m_0_i q om p m beta := by
  simpa only [ofR_complex, ofR_real] using scale_thermal_i_m_0_i hL q om p m beta

theorem scale_thermal_i_0_0_i_inst {L : ℝ} (hL : 0 < L) (q : ℝ) (om : ℂ) (p : ℝ) (beta : ℝ) :
    thermal.i_0_0_i (L * q) ((L : ℂ) * om) (L * p) (beta / L) = (L : ℂ) ^ (-1 : ℤ) * thermal.i_0_0_i q om p beta := by
  simpa only [ofR_complex, ofR_real] using scale_thermal_i_0_0_i hL q om p beta

theorem scale_thermal_i_m_m_l_i_inst {L : ℝ} (hL : 0 < L) (q : ℝ) (om : ℂ) (p : ℝ) (m1 : ℝ) (m2 : ℝ) (beta : ℝ) :
    thermal.i_m_m_l_i (L * q) ((L : ℂ) * om) (L * p) (L * m1) (L * m2) (beta / L) = (L : ℂ) ^ (1 : ℤ) * thermal.i_m_m_l_i q om p m1 m2 beta := by
  simpa only [ofR_complex, ofR_real] using scale_thermal_i_m_m_l_i hL q om p m1 m2 beta

theorem scale_thermal_i_m_m_l_i_same_mass_inst {L : ℝ} (hL : 0 < L) (q : ℝ) (om : ℂ) (p : ℝ) (m : ℝ) (beta : ℝ) :
    thermal.i_m_m_l_i_same_mass (L * q) ((L : ℂ) * om) (L * p) (L * m) (beta / L) = (L : ℂ) ^ (1 : ℤ) * thermal.i_m_m_l_i_same_mass q om p m beta := by
  simpa only [ofR_complex, ofR_real] using scale_thermal_i_m_m_l_i_same_mass hL q om p m beta

theorem scale_thermal_i_m_m_l_i_same_mass_instp {L : ℝ} (hL : 0 < L) (q : ℝ) (om : ℂ) (p : ℂ) (m : ℝ) (beta : ℝ) :
    thermal.i_m_m_l_i_same_mass (L * q) ((L : ℂ) * om) ((L : ℂ) * p) (L * m) (beta / L) = (L : ℂ) ^ (1 : ℤ) * thermal.i_m_m_l_i_same_mass q om p m beta := by
  simpa only [ofR_complex, ofR_real] using scale_thermal_i_m_m_l_i_same_mass hL q om p m beta

theorem scale_thermal_i_m_0_l_i_inst {L : ℝ} (hL : 0 < L) (q : ℝ) (om : ℂ) (p : ℝ) (m : ℝ) (beta : ℝ) :
    thermal.i_m_0_l_i (L * q) ((L : ℂ) * om) (L * p) (L * m) (beta / L) = (L : ℂ) ^ (1 : ℤ) * thermal.i_m_0_l_i q om p m beta := by
  simpa only [ofR_complex, ofR_real] using scale_thermal_i_m_0_l_i hL q om p m beta

theorem scale_thermal_i_m_0_l_i_instp {L : ℝ} (hL : 0 < L) (q : ℝ) (om : ℂ) (p : ℂ) (m : ℝ) (beta : ℝ) :
    thermal.i_m_0_l_i (L * q) ((L : ℂ) * om) ((L : ℂ) * p) (L * m) (beta / L) = (L : ℂ) ^ (1 : ℤ) * thermal.i_m_0_l_i q om p m beta := by
  simpa only [ofR_complex, ofR_real] using scale_thermal_i_m_0_l_i hL q om p m beta

theorem scale_thermal_i_0_0_l_i_inst {L : ℝ} (hL : 0 < L) (q : ℝ) (om : ℂ) (p : ℝ) (beta : ℝ) :
    thermal.i_0_0_l_i (L * q) ((L : ℂ) * om) (L * p) (beta / L) = (L : ℂ) ^ (1 : ℤ) * thermal.i_0_0_l_i q om p beta := by
  simpa only [ofR_complex, ofR_real] using scale_thermal_i_0_0_l_i hL q om p beta

theorem scale_thermal_i_0_0_l_i_instp {L : ℝ} (hL : 0 < L) (q : ℝ) (om : ℂ) (p : ℂ) (beta : ℝ) :
    thermal.i_0_0_l_i (L * q) ((L : ℂ) * om) ((L : ℂ) * p) (beta / L) = (L : ℂ) ^ (1 : ℤ) * thermal.i_0_0_l_i q om p beta := by
  simpa only [ofR_complex, ofR_real] using scale_thermal_i_0_0_l_i hL q om p beta

theorem scale_thermal_i_m_m_t_i_inst {L : ℝ} (hL : 0 < L) (q : ℝ) (om : ℂ) (p : ℝ) (m1 : ℝ) (m2 : ℝ) (beta : ℝ) :
    thermal.i_m_m_t_i (L * q) ((L : ℂ) * om) (L * p) (L * m1) (L * m2) (beta / L) = (L : ℂ) ^ (1 : ℤ) * thermal.i_m_m_t_i q om p m1 m2 beta := by
  simpa only [ofR_complex, ofR_real] using scale_thermal_i_m_m_t_i hL q om p m1 m2 beta

theorem scale_thermal_i_m_m_t_i_same_mass_inst {L : ℝ} (hL : 0 < L) (q : ℝ) (om : ℂ) (p : ℝ) (m : ℝ) (beta : ℝ) :
    thermal.i_m_m_t_i_same_mass (L * q) ((L : ℂ) * om) (L * p) (L * m) (beta / L) = (L : ℂ) ^ (1 : ℤ) * thermal.i_m_m_t_i_same_mass q om p m beta := by
  simpa only [ofR_complex, ofR_real] using scale_thermal_i_m_m_t_i_same_mass hL q om p m beta

theorem scale_thermal_i_m_0_t_i_inst {L : ℝ} (hL : 0 < L) (q : ℝ) (om : ℂ) (p : ℝ) (m : ℝ) (beta : ℝ) :
    thermal.i_m_0_t_i (L * q) ((L : ℂ) * om) (L * p) (L * m) (beta / L) = (L : ℂ) ^ (1 : ℤ) * thermal.i_m_0_t_i q om p m beta := by
  simpa only [ofR_complex, ofR_real] using scale_thermal_i_m_0_t_i hL q om p m beta

theorem scale_thermal_i_0_0_t_i_inst {L : ℝ} (hL : 0 < L) (q : ℝ) (om : ℂ) (p : ℝ) (beta : ℝ) :
    thermal.i_0_0_t_i (L * q) ((L : ℂ) * om) (L * p) (beta / L) = (L : ℂ) ^ (1 : ℤ) * thermal.i_0_0_t_i q om p beta := by
  simpa only [ofR_complex, ofR_real] using scale_thermal_i_0_0_t_i hL q om p beta

theorem scale_thermal_d_j_m_i_inst {L : ℝ} (hL : 0 < L) (q : ℝ) (m : ℝ) (beta : ℝ) :
    thermal.d_j_m_i (L * q) (L * m) (beta / L) = L ^ (-1 : ℤ) * thermal.d_j_m_i q m beta := by
  simpa only [ofR_complex, ofR_real] using scale_thermal_d_j_m_i hL q m beta

theorem scale_thermal_d2_j_m_i_inst {L : ℝ} (hL : 0 < L) (q : ℝ) (m : ℝ) (beta : ℝ) :
    thermal.d2_j_m_i (L * q) (L * m) (beta / L) = L ^ (-3 : ℤ) * thermal.d2_j_m_i q m beta := by
  simpa only [ofR_complex, ofR_real] using scale_thermal_d2_j_m_i hL q m beta

theorem scale_thermal_d_j_m_l_i_inst {L : ℝ} (hL : 0 < L) (q : ℝ) (m : ℝ) (beta : ℝ) :
    thermal.d_j_m_l_i (L * q) (L * m) (beta / L) = L ^ (1 : ℤ) * thermal.d_j_m_l_i q m beta := by
  simpa only [ofR_complex, ofR_real] using scale_thermal_d_j_m_l_i hL q m beta

theorem scale_thermal_d2_j_m_l_i_inst {L : ℝ} (hL : 0 < L) (q : ℝ) (m : ℝ) (beta : ℝ) :
    thermal.d2_j_m_l_i (L * q) (L * m) (beta / L) = L ^ (-1 : ℤ) * thermal.d2_j_m_l_i q m beta := by
  simpa only [ofR_complex, ofR_real] using scale_thermal_d2_j_m_l_i hL q m beta

theorem scale_thermal_d_j_m_t_i_inst {L : ℝ} (hL : 0 < L) (q : ℝ) (m : ℝ) (beta : ℝ) :
    thermal.d_j_m_t_i (L * q) (L * m) (beta / L) = L ^ (1 : ℤ) * thermal.d_j_m_t_i q m beta := by
  simpa only [ofR_complex, ofR_real] using scale_thermal_d_j_m_t_i hL q m beta

theorem scale_thermal_d2_j_m_t_i_inst {L : ℝ} (hL : 0 < L) (q : ℝ) (m : ℝ) (beta : ℝ) :
    thermal.d2_j_m_t_i (L * q) (L * m) (beta / L) = L ^ (-1 : ℤ) * thermal.d2_j_m_t_i q m beta := by
  simpa only [ofR_complex, ofR_real] using scale_thermal_d2_j_m_t_i hL q m beta

theorem scale_thermal_d_i_m_m_i_inst {L : ℝ} (hL : 0 < L) (q : ℝ) (om : ℂ) (p : ℝ) (m1 : ℝ) (m2 : ℝ) (beta : ℝ) :
    thermal.d_i_m_m_i (L * q) ((L : ℂ) * om) (L * p) (L * m1) (L * m2) (beta / L) = (L : ℂ) ^ (-3 : ℤ) * thermal.d_i_m_m_i q om p m1 m2 beta := by
  simpa only [ofR_complex, ofR_real] using scale_thermal_d_i_m_m_i hL q om p m1 m2 beta

theorem scale_thermal_d_i_m_m_i_same_mass_inst {L : ℝ} (hL : 0 < L) (q : ℝ) (om : ℂ) (p : ℝ) (m : ℝ) (beta : ℝ) :
    thermal.d_i_m_m_i_same_mass (L * q) ((L : ℂ) * om) (L * p) (L * m) (beta / L) = (L : ℂ) ^ (-3 : ℤ) * thermal.d_i_m_m_i_same_mass q om p m beta := by
  simpa only [ofR_complex, ofR_real] using scale_thermal_d_i_m_m_i_same_mass hL q om p m beta

theorem scale_thermal_d_i_m_m_i_same_mass_instp {L : ℝ} (hL : 0 < L) (q : ℝ) (om : ℂ) (p : ℂ) (m : ℝ) (beta : ℝ) :
    thermal.d_i_m_m_i_same_mass (L * q) ((L : ℂ) * om) ((L : ℂ) * p) (L * m) (beta / L) = (L : ℂ) ^ (-3 : ℤ) * thermal.d_i_m_m_i_same_mass q om p m beta := by
  simpa only [ofR_complex, ofR_real] using scale_thermal_d_i_m_m_i_same_mass hL q om p m beta

theorem scale_thermal_d_i_m_0_i_inst {L : ℝ} (hL : 0 < L) (q : ℝ) (om : ℂ) (p : ℝ) (m : ℝ) (beta : ℝ) :
    thermal.d_i_m_0_i (L * q) ((L : ℂ) * om) (L * p) (L * m) (beta / L) = (L : ℂ) ^ (-3 : ℤ) * thermal.d_i_m_0_i q om p m beta := by
  simpa only [ofR_complex, ofR_real] using scale_thermal_d_i_m_0_i hL q om p m beta

theorem scale_thermal_d_i_m_0_i_instp {L : ℝ} (hL : 0 < L) (q : ℝ) (om : ℂ) (p : ℂ) (m : ℝ) (beta : ℝ) :
    thermal.d_i_m_0_i (L * q) ((L : ℂ) * om) ((L : ℂ) * p) (L * m) (beta / L) = (L : ℂ) ^ (-3 : ℤ) * thermal.d_i_m_0_i q om p m beta := by
  simpa only [ofR_complex, ofR_real] using scale_thermal_d_i_m_0_i hL q om p m beta

theorem scale_thermal_d_i_0_0_i_inst {L : ℝ} (hL : 0 < L) (q : ℝ) (om : ℂ) (p : ℝ) (beta : ℝ) :
    thermal.d_i_0_0_i (L * q) ((L : ℂ) * om) (L * p) (beta / L) = (L : ℂ) ^ (-3 : ℤ) * thermal.d_i_0_0_i q om p beta := by
  simpa only [ofR_complex, ofR_real] using scale_thermal_d_i_0_0_i hL q om p beta

theorem scale_thermal_d_i_m_m_l_i_inst {L : ℝ} (hL : 0 < L) (q : ℝ) (om : ℂ) (p : ℝ) (m1 : ℝ) (m2 : ℝ) (beta : ℝ) :
    thermal.d_i_m_m_l_i (L * q) ((L : ℂ) * om) (L * p) (L * m1) (L * m2) (beta / L) = (L : ℂ) ^ (-1 : ℤ) * thermal.d_i_m_m_l_i q om p m1 m2 beta := by
  simpa only [ofR_complex, ofR_real] using scale_thermal_d_i_m_m_l_i hL q om p m1 m2 beta

theorem scale_thermal_d_i_m_m_l_i_same_mass_inst {L : ℝ} (hL : 0 < L) (q : ℝ) (om : ℂ) (p : ℝ) (m : ℝ) (beta : ℝ) :
    thermal.d_i_m_m_l_i_same_mass (L * q) ((L : ℂ) * om) (L * p) (L * m) (beta / L) = (L : ℂ) ^ (-1 : ℤ) * thermal.d_i_m_m_l_i_same_mass q om p m beta := by
  simpa only [ofR_complex, ofR_real] using scale_thermal_d_i_m_m_l_i_same_mass hL q om p m beta

theorem scale_thermal_d_i_m_m_l_i_same_mass_instp {L : ℝ} (hL : 0 < L) (q : ℝ) (om : ℂ) (p : ℂ) (m : ℝ) (beta : ℝ) :
    thermal.d_i_m_m_l_i_same_mass (L * q) ((L : ℂ) * om) ((L : ℂ) * p) (L * m) (beta / L) = (L : ℂ) ^ (-1 : ℤ) * thermal.d_i_m_m_l_i_same_mass q om p m beta := by
  simpa only [ofR_complex, ofR_real] using scale_thermal_d_i_m_m_l_i_same_mass hL q om p m beta

theorem scale_thermal_d_i_m_0_l_i_inst {L : ℝ} (hL : 0 < L) (q : ℝ) (om : ℂ) (p : ℝ) (m : ℝ) (beta : ℝ) :
    thermal.d_i_m_0_l_i (L * q) ((L : ℂ) * om) (L * p) (L * m) (beta / L) = (L : ℂ) ^ (-1 : ℤ) * thermal.d_i_m_0_l_i q om p m beta := by
  simpa only [ofR_complex, ofR_real] using scale_thermal_d_i_m_0_l_i hL q om p m beta

theorem scale_thermal_d_i_m_0_l_i_instp {L : ℝ} (hL : 0 < L) (q : ℝ) (om : ℂ) (p : ℂ) (m : ℝ) (beta : ℝ) :
    thermal.d_i_m_0_l_i (L * q) ((L : ℂ) * om) ((L : ℂ) * p) (L * m) (beta / L) = (L : ℂ) ^ (-1 : ℤ) * thermal.d_i_m_0_l_i q om p m beta := by
  simpa only [ofR_complex, ofR_real] using scale_thermal_d_i_m_0_l_i hL q om p m beta

theorem scale_thermal_d_i_0_0_l_i_inst {L : ℝ} (hL : 0 < L) (q : ℝ) (om : ℂ) (p : ℝ) (beta : ℝ) :
    thermal.d_i_0_0_l_i (L * q) ((L : ℂ) * om) (L * p) (beta / L) = (L : ℂ) ^ (-1 : ℤ) * thermal.d_i_0_0_l_i q om p beta := by
  simpa only [ofR_complex, ofR_real] using scale_thermal_d_i_0_0_l_i hL q om p beta

theorem scale_thermal_d_i_m_m_t_i_inst {L : ℝ} (hL : 0 < L) (q : ℝ) (om : ℂ) (p : ℝ) (m1 : ℝ) (m2 : ℝ) (beta : ℝ) :
    thermal.d_i_m_m_t_i (L * q) ((L : ℂ) * om) (L * p) (L * m1) (L * m2) (beta / L) = (L : ℂ) ^ (-1 : ℤ) * thermal.d_i_m_m_t_i q om p m1 m2 beta := by
  simpa only [ofR_complex, ofR_real] using scale_thermal_d_i_m_m_t_i hL q om p m1 m2 beta

theorem scale_thermal_d_i_m_m_t_i_same_mass_inst {L : ℝ} (hL : 0 < L) (q : ℝ) (om : ℂ) (p : ℝ) (m : ℝ) (beta : ℝ) :
    thermal.d_i_m_m_t_i_same_mass (L * q) ((L : ℂ) * om) (L * p) (L * m) (beta / L) = (L : ℂ) ^ (-1 : ℤ) * thermal.d_i_m_m_t_i_same_mass q om p m beta := by
  simpa only [ofR_complex, ofR_real] using scale_thermal_d_i_m_m_t_i_same_mass hL q om p m beta

theorem scale_thermal_d_i_m_0_t_i_inst {L : ℝ} (hL : 0 < L) (q : ℝ) (om : ℂ) (p : ℝ) (m : ℝ) (beta : ℝ) :
    thermal.d_i_m_0_t_i (L * q) ((L : ℂ) * om) (L * p) (L * m) (beta / L) = (L : ℂ) ^ (-1 : ℤ) * thermal.d_i_m_0_t_i q om p m beta := by
  simpa only [ofR_complex, ofR_real] using scale_thermal_d_i_m_0_t_i hL q om p m beta

theorem scale_thermal_d_i_0_0_t_i_inst {L : ℝ} (hL : 0 < L) (q : ℝ) (om : ℂ) (p : ℝ) (beta : ℝ) :
    thermal.d_i_0_0_t_i (L * q) ((L : ℂ) * om) (L * p) (beta / L) = (L : ℂ) ^ (-1 : ℤ) * thermal.d_i_0_0_t_i q om p beta := by
  simpa only [ofR_complex, ofR_real] using scale_thermal_d_i_0_0_t_i hL q om p beta

theorem scale_thermal_zero_momentum_i_m_m_i_inst {L : ℝ} (hL : 0 < L) (q : ℝ) (om : ℂ) (m1 : ℝ) (m2 : ℝ) (beta : ℝ) :
    thermal.zero_momentum.i_m_m_i (L * q) ((L : ℂ) * om) (L * m1) (L * m2) (beta / L) = (L : ℂ) ^ (-1 : ℤ) * thermal.zero_momentum.i_m_m_i q om m1 m2 beta := by
  simpa only [ofR_complex, ofR_real] using scale_thermal_zero_momentum_i_m_m_i hL q om m1 m2 beta

theorem scale_thermal_zero_momentum_i_m_m_i_same_mass_inst {L : ℝ} (hL : 0 < L) (q : ℝ) (om : ℂ) (m : ℝ) (beta : ℝ) :
    thermal.zero_momentum.i_m_m_i_same_mass (L * q) ((L : ℂ) * om) (L * m) (beta / L) = (L : ℂ) ^ (-1 : ℤ) * thermal.zero_momentum.i_m_m_i_same_mass q om m beta := by
  simpa only [ofR_complex, ofR_real] using scale_thermal_zero_momentum_i_m_m_i_same_mass hL q om m beta

theorem scale_thermal_zero_momentum_i_m_0_i_inst {L : ℝ} (hL : 0 < L) (q : ℝ) (om : ℂ) (m : ℝ) (beta : ℝ) :
    thermal.zero_momentum.i_m_0_i (L * q) ((L : ℂ) * om) (L * m) (beta / L) = (L : ℂ) ^ (-1 : ℤ) * thermal.zero_momentum.i_m_0_i q om m beta := by
  simpa only [ofR_complex, ofR_real] using scale_thermal_zero_momentum_i_m_0_i hL q om m beta

theorem scale_thermal_zero_momentum_i_0_0_i_inst {L : ℝ} (hL : 0 < L) (q : ℝ) (om : ℂ) (beta : ℝ) :
    thermal.zero_momentum.i_0_0_i (L * q) ((L : ℂ) * om) (beta / L) = (L : ℂ) ^ (-1 : ℤ) * thermal.zero_momentum.i_0_0_i q om beta := by
  simpa only [ofR_complex, ofR_real] using scale_thermal_zero_momentum_i_0_0_i hL q om beta

theorem scale_thermal_zero_momentum_i_m_m_l_i_inst {L : ℝ} (hL : 0 < L) (q : ℝ) (om : ℂ) (m1 : ℝ) (m2 : ℝ) (beta : ℝ) :
    thermal.zero_momentum.i_m_m_l_i (L * q) ((L : ℂ) * om) (L * m1) (L * m2) (beta / L) = (L : ℂ) ^ (1 : ℤ) * thermal.zero_momentum.i_m_m_l_i q om m1 m2 beta := by
  simpa only [ofR_complex, ofR_real] using scale_thermal_zero_momentum_i_m_m_l_i hL q om m1 m2 beta

theorem scale_thermal_zero_momentum_i_m_m_l_i_same_mass_inst {L : ℝ} (hL : 0 < L) (q : ℝ) (om : ℂ) (m : ℝ) (beta : ℝ) :
    thermal.zero_momentum.i_m_m_l_i_same_mass (L * q) ((L : ℂ) * om) (L * m) (beta / L) = (L : ℂ) ^ (1 : ℤ) * thermal.zero_momentum.i_m_m_l_i_same_mass q om m beta := by
  simpa only [ofR_complex, ofR_real] using scale_thermal_zero_momentum_i_m_m_l_i_same_mass hL q om m beta

theorem scale_thermal_zero_momentum_i_m_0_l_i_inst {L : ℝ} (hL : 0 < L) (q : ℝ) (om : ℂ) (m : ℝ) (beta : ℝ) :
    thermal.zero_momentum.i_m_0_l_i (L * q) ((L : ℂ) * om) (L * m) (beta / L) = (L : ℂ) ^ (1 : ℤ) * thermal.zero_momentum.i_m_0_l_i q om m beta := by
  simpa only [ofR_complex, ofR_real] using scale_thermal_zero_momentum_i_m_0_l_i hL q om m beta

theorem scale_thermal_zero_momentum_i_0_0_l_i_inst {L : ℝ} (hL : 0 < L) (q : ℝ) (om : ℂ) (beta : ℝ) :
    thermal.zero_momentum.i_0_0_l_i (L * q) ((L : ℂ) * om) (beta / L) = (L : ℂ) ^ (1 : ℤ) * thermal.zero_momentum.i_0_0_l_i q om beta := by
  simpa only [ofR_complex, ofR_real] using scale_thermal_zero_momentum_i_0_0_l_i hL q om beta

theorem scale_thermal_zero_momentum_i_m_m_t_i_inst {L : ℝ} (hL : 0 < L) (q : ℝ) (om : ℂ) (m1 : ℝ) (m2 : ℝ) (beta : ℝ) :
    thermal.zero_momentum.i_m_m_t_i (L * q) ((L : ℂ) * om) (L * m1) (L * m2) (beta / L) = (L : ℂ) ^ (1 : ℤ) * thermal.zero_momentum.i_m_m_t_i q om m1 m2 beta := by
  simpa only [ofR_complex, ofR_real] using scale_thermal_zero_momentum_i_m_m_t_i hL q om m1 m2 beta

theorem scale_thermal_zero_momentum_i_m_m_t_i_same_mass_inst {L : ℝ} (hL : 0 < L) (q : ℝ) (om : ℂ) (m : ℝ) (beta : ℝ) :
    thermal.zero_momentum.i_m_m_t_i_same_mass (L * q) ((L : ℂ) * om) (L * m) (beta / L) = (L : ℂ) ^ (1 : ℤ) * thermal.zero_momentum.i_m_m_t_i_same_mass q om m beta := by
  simpa only [ofR_complex, ofR_real] using scale_thermal_zero_momentum_i_m_m_t_i_same_mass hL q om m beta

theorem scale_thermal_zero_momentum_i_m_0_t_i_inst {L : ℝ} (hL : 0 < L) (q : ℝ) (om : ℂ) (m : ℝ) (beta : ℝ) :
    thermal.zero_momentum.i_m_0_t_i (L * q) ((L : ℂ) * om) (L * m) (beta / L) = (L : ℂ) ^ (1 : ℤ) * thermal.zero_momentum.i_m_0_t_i q om m beta := by
  simpa only [ofR_complex, ofR_real] using scale_thermal_zero_momentum_i_m_0_t_i hL q om m beta

theorem scale_thermal_zero_momentum_i_0_0_t_i_inst {L : ℝ} (hL : 0 < L) (q : ℝ) (om : ℂ) (beta : ℝ) :
    thermal.zero_momentum.i_0_0_t_i (L * q) ((L : ℂ) * om) (beta / L) = (L : ℂ) ^ (1 : ℤ) * thermal.zero_momentum.i_0_0_t_i q om beta := by
  simpa only [ofR_complex, ofR_real] using scale_thermal_zero_momentum_i_0_0_t_i hL q om beta

theorem scale_thermal_zero_momentum_d_i_m_m_i_inst {L : ℝ} (hL : 0 < L) (q : ℝ) (om : ℂ) (m1 : ℝ) (m2 : ℝ) (beta : ℝ) :
    thermal.zero_momentum.d_i_m_m_i (L * q) ((L : ℂ) * om) (L * m1) (L * m2) (beta / L) = (L : ℂ) ^ (-3 : ℤ) * thermal.zero_momentum.d_i_m_m_i q om m1 m2 beta := by
  simpa only [ofR_complex, ofR_real] using scale_thermal_zero_momentum_d_i_m_m_i hL q om m1 m2 beta

theorem scale_thermal_zero_momentum_d_i_m_m_i_same_mass_inst {L : ℝ} (hL : 0 < L) (q : ℝ) (om : ℂ) (m : ℝ) (beta : ℝ) :
    thermal.zero_momentum.d_i_m_m_i_same_mass (L * q) ((L : ℂ) * om) (L * m) (beta / L) = (L : ℂ) ^ (-3 : ℤ) * thermal.zero_momentum.d_i_m_m_i_same_mass q om m beta := by
  simpa only [ofR_complex, ofR_real] using scale_thermal_zero_momentum_d_i_m_m_i_same_mass hL q om m beta

theorem scale_thermal_zero_momentum_d_i_m_0_i_inst {L : ℝ} (hL : 0 < L) (q : ℝ) (om : ℂ) (m : ℝ) (beta : ℝ) :
    thermal.zero_momentum.d_i_m_0_i (L * q) ((L : ℂ) * om) (L * m) (beta / L) = (L : ℂ) ^ (-3 : ℤ) * thermal.zero_momentum.d_i_m_0_i q om m beta := by
  simpa only [ofR_complex, ofR_real] using scale_thermal_zero_momentum_d_i_m_0_i hL q om m beta

theorem scale_thermal_zero_momentum_d_i_0_0_i_inst {L : ℝ} (hL : 0 < L) (q : ℝ) (om : ℂ) (beta : ℝ) :
    thermal.zero_momentum.d_i_0_0_i (L * q) ((L : ℂ) * om) (beta / L) = (L : ℂ) ^ (-3 : ℤ) * thermal.zero_momentum.d_i_0_0_i q om beta := by
  simpa only [ofR_complex, ofR_real] using scale_thermal_zero_momentum_d_i_0_0_i hL q om beta

theorem scale_thermal_zero_momentum_d_i_m_m_l_i_inst {L : ℝ} (hL : 0 < L) (q : ℝ) (om : ℂ) (m1 : ℝ) (m2 : ℝ) (beta : ℝ) :
    thermal.zero_momentum.d_i_m_m_l_i (L * q) ((L : ℂ) * om) (L * m1) (L * m2) (beta / L) = (L : ℂ) ^ (-1 : ℤ) * thermal.zero_momentum.d_i_m_m_l_i q om m1 m2 beta := by
  simpa only [ofR_complex, ofR_real] using scale_thermal_zero_momentum_d_i_m_m_l_i hL q om m1 m2 beta

theorem scale_thermal_zero_momentum_d_i_m_m_l_i_same_mass_inst {L : ℝ} (hL : 0 < L) (q : ℝ) (om : ℂ) (m : ℝ) (beta : ℝ) :
    thermal.zero_momentum.d_i_m_m_l_i_same_mass (L * q) ((L : ℂ) * om) (L * m) (beta / L) = (L : ℂ) ^ (-1 : ℤ) * thermal.zero_momentum.d_i_m_m_l_i_same_mass q om m beta := by
  simpa only [ofR_complex, ofR_real] using scale_thermal_zero_momentum_d_i_m_m_l_i_same_mass hL q om m beta

theorem scale_thermal_zero_momentum_d_i_m_0_l_i_inst {L : ℝ} (hL : 0 < L) (q : ℝ) (om : ℂ) (m : ℝ) (beta : ℝ) :
    thermal.zero_momentum.d_i_m_0_l_i (L * q) ((L : ℂ) * om) (L * m) (beta / L) = (L : ℂ) ^ (-1 : ℤ) * thermal.zero_momentum.d_i_m_0_l_i q om m beta := by
  simpa only [ofR_complex, ofR_real] using scale_thermal_zero_momentum_d_i_m_0_l_i hL q om m beta

theorem scale_thermal_zero_momentum_d_i_0_0_l_i_inst {L : ℝ} (hL : 0 < L) (q : ℝ) (om : ℂ) (beta : ℝ) :
    thermal.zero_momentum.d_i_0_0_l_i (L * q) ((L : ℂ) * om) (beta / L) = (L : ℂ) ^ (-1 : ℤ) * thermal.zero_momentum.d_i_0_0_l_i q om beta := by
  simpa only [ofR_complex, ofR_real] using scale_thermal_zero_momentum_d_i_0_0_l_i hL q om beta

theorem scale_thermal_zero_momentum_d_i_m_m_t_i_inst {L : ℝ} (hL : 0 < L) (q : ℝ) (om : ℂ) (m1 : ℝ) (m2 : ℝ) (beta : ℝ) :
    thermal.zero_momentum.d_i_m_m_t_i (L * q) ((L : ℂ) * om) (L * m1) (L * m2) (beta / L) = (L : ℂ) ^ (-1 : ℤ) * thermal.zero_momentum.d_i_m_m_t_i q om m1 m2 beta := by
  simpa only [ofR_complex, ofR_real] using scale_thermal_zero_momentum_d_i_m_m_t_i hL q om m1 m2 beta

theorem scale_thermal_zero_momentum_d_i_m_m_t_i_same_mass_inst {L : ℝ} (hL : 0 < L) (q : ℝ) (om : ℂ) (m : ℝ) (beta : ℝ) :
    thermal.zero_momentum.d_i_m_m_t_i_same_mass (L * q) ((L : ℂ) * om) (L * m) (beta / L) = (L : ℂ) ^ (-1 : ℤ) * thermal.zero_momentum.d_i_m_m_t_i_same_mass q om m beta := by
  simpa only [ofR_complex, ofR_real] using scale_thermal_zero_momentum_d_i_m_m_t_i_same_mass hL q om m beta

theorem scale_thermal_zero_momentum_d_i_m_0_t_i_inst {L : ℝ} (hL : 0 < L) (q : ℝ) (om : ℂ) (m : ℝ) (beta : ℝ) :
    thermal.zero_momentum.d_i_m_0_t_i (L * q) ((L : ℂ) * om) (L * m) (beta / L) = (L : ℂ) ^ (-1 : ℤ) * thermal.zero_momentum.d_i_m_0_t_i q om m beta := by
  simpa only [ofR_complex, ofR_real] using scale_thermal_zero_momentum_d_i_m_0_t_i hL q om m beta

theorem scale_thermal_zero_momentum_d_i_0_0_t_i_inst {L : ℝ} (hL : 0 < L) (q : ℝ) (om : ℂ) (beta : ℝ) :
    thermal.zero_momentum.d_i_0_0_t_i (L * q) ((L : ℂ) * om) (beta / L) = (L : ℂ) ^ (-1 : ℤ) * thermal.zero_momentum.d_i_0_0_t_i q om beta := by
  simpa only [ofR_complex, ofR_real] using scale_thermal_zero_momentum_d_i_0_0_t_i hL q om beta

theorem scale_thermal_zero_matsubara_i_m_m_i_inst {L : ℝ} (hL : 0 < L) (q : ℝ) (p : ℝ) (m1 : ℝ) (m2 : ℝ) (beta : ℝ) :
    thermal.zero_matsubara.i_m_m_i (L * q) (L * p) (L * m1) (L * m2) (beta / L) = (L : ℂ) ^ (-1 : ℤ) * thermal.zero_matsubara.i_m_m_i q p m1 m2 beta := by
  simpa only [ofR_complex, ofR_real] using scale_thermal_zero_matsubara_i_m_m_i hL q p m1 m2 beta

theorem scale_thermal_zero_matsubara_i_m_m_i_same_mass_inst {L : ℝ} (hL : 0 < L) (q : ℝ) (p : ℝ) (m : ℝ) (beta : ℝ) :
    thermal.zero_matsubara.i_m_m_i_same_mass (L * q) (L * p) (L * m) (beta / L) = L ^ (-1 : ℤ) * thermal.zero_matsubara.i_m_m_i_same_mass q p m beta := by
  simpa only [ofR_complex, ofR_real] using scale_thermal_zero_matsubara_i_m_m_i_same_mass hL q p m beta

theorem scale_thermal_zero_matsubara_i_m_0_i_inst {L : ℝ} (hL : 0 < L) (q : ℝ) (p : ℝ) (m : ℝ) (beta : ℝ) :
    thermal.zero_matsubara.i_m_0_i (L * q) (L * p) (L * m) (beta / L) = (L : ℂ) ^ (-1 : ℤ) * thermal.zero_matsubara.i_m_0_i q p m beta := by
  simpa only [ofR_complex, ofR_real] using scale_thermal_zero_matsubara_i_m_0_i hL q p m beta

theorem scale_thermal_zero_matsubara_i_m_m_l_i_inst {L : ℝ} (hL : 0 < L) (q : ℝ) (p : ℝ) (m1 : ℝ) (m2 : ℝ) (beta : ℝ) :
    thermal.zero_matsubara.i_m_m_l_i (L * q) (L * p) (L * m1) (L * m2) (beta / L) = (L : ℂ) ^ (1 : ℤ) * thermal.zero_matsubara.i_m_m_l_i q p m1 m2 beta := by
  simpa only [ofR_complex, ofR_real] using scale_thermal_zero_matsubara_i_m_m_l_i hL q p m1 m2 beta

theorem scale_thermal_zero_matsubara_i_m_m_l_i_same_mass_inst {L : ℝ} (hL : 0 < L) (q : ℝ) (p : ℝ) (m : ℝ) (beta : ℝ) :
    thermal.zero_matsubara.i_m_m_l_i_same_mass (L * q) (L * p) (L * m) (beta / L) = L ^ (1 : ℤ) * thermal.zero_matsubara.i_m_m_l_i_same_mass q p m beta := by
  simpa only [ofR_complex, ofR_real] using scale_thermal_zero_matsubara_i_m_m_l_i_same_mass hL q p m beta

theorem scale_thermal_zero_matsubara_i_m_0_l_i_inst {L : ℝ} (hL : 0 < L) (q : ℝ) (p : ℝ) (m : ℝ) (beta : ℝ) :
    thermal.zero_matsubara.i_m_0_l_i (L * q) (L * p) (L * m) (beta / L) = (L : ℂ) ^ (1 : ℤ) * thermal.zero_matsubara.i_m_0_l_i q p m beta := by
  simpa only [ofR_complex, ofR_real] using scale_thermal_zero_matsubara_i_m_0_l_i hL q p m beta

theorem scale_thermal_zero_matsubara_i_m_m_t_i_inst {L : ℝ} (hL : 0 < L) (q : ℝ) (p : ℝ) (m1 : ℝ) (m2 : ℝ) (beta : ℝ) :
    thermal.zero_matsubara.i_m_m_t_i (L * q) (L * p) (L * m1) (L * m2) (beta / L) = (L : ℂ) ^ (1 : ℤ) * thermal.zero_matsubara.i_m_m_t_i q p m1 m2 beta := by
  simpa only [ofR_complex, ofR_real] using scale_thermal_zero_matsubara_i_m_m_t_i hL q p m1 m2 beta

theorem scale_thermal_zero_matsubara_i_m_m_t_i_same_mass_inst {L : ℝ} (hL : 0 < L) (q : ℝ) (p : ℝ) (m : ℝ) (beta : ℝ) :
    thermal.zero_matsubara.i_m_m_t_i_same_mass (L * q) (L * p) (L * m) (beta / L) = L ^ (1 : ℤ) * thermal.zero_matsubara.i_m_m_t_i_same_mass q p m beta := by
  simpa only [ofR_complex, ofR_real] using scale_thermal_zero_matsubara_i_m_m_t_i_same_mass hL q p m beta

theorem scale_thermal_zero_matsubara_i_m_0_t_i_inst {L : ℝ} (hL : 0 < L) (q : ℝ) (p : ℝ) (m : ℝ) (beta : ℝ) :
    thermal.zero_matsubara.i_m_0_t_i (L * q) (L * p) (L * m) (beta / L) = (L : ℂ) ^ (1 : ℤ) * thermal.zero_matsubara.i_m_0_t_i q p m beta := by
  simpa only [ofR_complex, ofR_real] using scale_thermal_zero_matsubara_i_m_0_t_i hL q p m beta

theorem scale_thermal_zero_matsubara_d_i_m_m_i_inst {L : ℝ} (hL : 0 < L) (q : ℝ) (p : ℝ) (m1 : ℝ) (m2 : ℝ) (beta : ℝ) :
    thermal.zero_matsubara.d_i_m_m_i (L * q) (L * p) (L * m1) (L * m2) (beta / L) = (L : ℂ) ^ (-3 : ℤ) * thermal.zero_matsubara.d_i_m_m_i q p m1 m2 beta := by
  simpa only [ofR_complex, ofR_real] using scale_thermal_zero_matsubara_d_i_m_m_i hL q p m1 m2 beta

theorem scale_thermal_zero_matsubara_d_i_m_m_i_same_mass_inst {L : ℝ} (hL : 0 < L) (q : ℝ) (p : ℝ) (m : ℝ) (beta : ℝ) :
    thermal.zero_matsubara.d_i_m_m_i_same_mass (L * q) (L * p) (L * m) (beta / L) = L ^ (-3 : ℤ) * thermal.zero_matsubara.d_i_m_m_i_same_mass q p m beta := by
  simpa only [ofR_complex, ofR_real] using scale_thermal_zero_matsubara_d_i_m_m_i_same_mass hL q p m beta

theorem scale_thermal_zero_matsubara_d_i_m_0_i_inst {L : ℝ} (hL : 0 < L) (q : ℝ) (p : ℝ) (m : ℝ) (beta : ℝ) :
    thermal.zero_matsubara.d_i_m_0_i (L * q) (L * p) (L * m) (beta / L) = L ^ (-3 : ℤ) * thermal.zero_matsubara.d_i_m_0_i q p m beta := by
  simpa only [ofR_complex, ofR_real] using scale_thermal_zero_matsubara_d_i_m_0_i hL q p m beta

theorem scale_thermal_zero_matsubara_d_i_m_m_l_i_inst {L : ℝ} (hL : 0 < L) (q : ℝ) (p : ℝ) (m1 : ℝ) (m2 : ℝ) (beta : ℝ) :
    thermal.zero_matsubara.d_i_m_m_l_i (L * q) (L * p) (L * m1) (L * m2) (beta / L) = (L : ℂ) ^ (-1 : ℤ) * thermal.zero_matsubara.d_i_m_m_l_i q p m1 m2 beta := by
  simpa only [ofR_complex, ofR_real] using scale_thermal_zero_matsubara_d_i_m_m_l_i hL q p m1 m2 beta

theorem scale_thermal_zero_matsubara_d_i_m_m_l_i_same_mass_inst {L : ℝ} (hL : 0 < L) (q : ℝ) (p : ℝ) (m : ℝ) (beta : ℝ) :
    thermal.zero_matsubara.d_i_m_m_l_i_same_mass (L * q) (L * p) (L * m) (beta / L) = L ^ (-1 : ℤ) * thermal.zero_matsubara.d_i_m_m_l_i_same_mass q p m beta := by
  simpa only [ofR_complex, ofR_real] using scale_thermal_zero_matsubara_d_i_m_m_l_i_same_mass hL q p m beta

theorem scale_thermal_zero_matsubara_d_i_m_0_l_i_inst {L : ℝ} (hL : 0 < L) (q : ℝ) (p : ℝ) (m : ℝ) (beta : ℝ) :
    thermal.zero_matsubara.d_i_m_0_l_i (L * q) (L * p) (L * m) (beta / L) = L ^ (-1 : ℤ) * thermal.zero_matsubara.d_i_m_0_l_i q p m beta := by
  simpa only [ofR_complex, ofR_real] using scale_thermal_zero_matsubara_d_i_m_0_l_i hL q p m beta

theorem scale_thermal_zero_matsubara_d_i_m_m_t_i_inst {L : ℝ} (hL : 0 < L) (q : ℝ) (p : ℝ) (m1 : ℝ) (m2 : ℝ) (beta : ℝ) :
    thermal.zero_matsubara.d_i_m_m_t_i (L * q) (L * p) (L * m1) (L * m2) (beta / L) = (L : ℂ) ^ (-1 : ℤ) * thermal.zero_matsubara.d_i_m_m_t_i q p m1 m2 beta := by
  simpa only [ofR_complex, ofR_real] using scale_thermal_zero_matsubara_d_i_m_m_t_i hL q p m1 m2 beta

theorem scale_thermal_zero_matsubara_d_i_m_m_t_i_same_mass_inst {L : ℝ} (hL : 0 < L) (q : ℝ) (p : ℝ) (m : ℝ) (beta : ℝ) :
    thermal.zero_matsubara.d_i_m_m_t_i_same_mass (L * q) (L * p) (L * m) (beta / L) = L ^ (-1 : ℤ) * thermal.zero_matsubara.d_i_m_m_t_i_same_mass q p m beta := by
  simpa only [ofR_complex, ofR_real] using scale_thermal_zero_matsubara_d_i_m_m_t_i_same_mass hL q p m beta

theorem scale_thermal_zero_matsubara_d_i_m_0_t_i_inst {L : ℝ} (hL : 0 < L) (q : ℝ) (p : ℝ) (m : ℝ) (beta : ℝ) :
    thermal.zero_matsubara.d_i_m_0_t_i (L * q) (L * p) (L * m) (beta / L) = (L : ℂ) ^ (-1 : ℤ) * thermal.zero_matsubara.d_i_m_0_t_i q p m beta := by
  simpa only [ofR_complex, ofR_real] using scale_thermal_zero_matsubara_d_i_m_0_t_i hL q p m beta

theorem scale_ghost_thermal_self_energy_thermal_part_landau_i {L : ℝ} (hL : 0 < L) (q : ℝ) (om : T) (p : ℝ) (m : ℝ) (beta : ℝ) :
    ghost.thermal.self_energy_thermal_part_landau_i (L * q) (ofR L * om) (L * p) (L * m) (beta / L) = (L : ℂ) ^ (1 : ℤ) * ghost.thermal.self_energy_thermal_part_landau_i q om p m beta := by
  have hL0 : (L : ℂ) ≠ 0 := Complex.ofReal_ne_zero.2 hL.ne'
  rw [toC_ghost_thermal_self_energy_thermal_part_landau_i (L * q) (ofR L * om) (L * p) (L * m) (beta / L), toC_ghost_thermal_self_energy_thermal_part_landau_i q om p m beta]
  simp only [ghost.thermal.self_energy_thermal_part_landau_i, scale_thermal_j_m_i_inst hL, scale_thermal_j_0_i hL, scale_thermal_j_m_l_i_inst hL, scale_thermal_j_0_l_i hL, scale_thermal_j_m_t_i_inst hL, scale_thermal_j_0_t_i hL, scale_thermal_i_m_m_i_inst hL, scale_thermal_i_m_m_i_same_mass_inst hL, scale_thermal_i_m_m_i_same_mass_instp hL, scale_thermal_i_m_0_i_inst hL, scale_thermal_i_m_0_i_instp hL, scale_thermal_i_0_0_i_inst hL, scale_thermal_i_m_m_l_i_inst hL, scale_thermal_i_m_m_l_i_same_mass_inst hL, scale_thermal_i_m_m_l_i_same_mass_instp hL, scale_thermal_i_m_0_l_i_inst hL, scale_thermal_i_m_0_l_i_instp hL, scale_thermal_i_0_0_l_i_inst hL, scale_thermal_i_0_0_l_i_instp hL, scale_thermal_i_m_m_t_i_inst hL, scale_thermal_i_m_m_t_i_same_mass_inst hL, scale_thermal_i_m_0_t_i_inst hL, scale_thermal_i_0_0_t_i_inst hL, scale_thermal_d_j_m_i_inst hL, scale_thermal_d_j_0_i hL, scale_thermal_d2_j_m_i_inst hL, scale_thermal_d2_j_0_i hL, scale_thermal_d_j_m_l_i_inst hL, scale_thermal_d_j_0_l_i hL, scale_thermal_d2_j_m_l_i_inst hL, scale_thermal_d2_j_0_l_i hL, scale_thermal_d_j_m_t_i_inst hL, scale_thermal_d_j_0_t_i hL, scale_thermal_d2_j_m_t_i_inst hL, scale_thermal_d2_j_0_t_i hL, scale_thermal_d_i_m_m_i_inst hL, scale_thermal_d_i_m_m_i_same_mass_inst hL, scale_thermal_d_i_m_m_i_same_mass_instp hL, scale_thermal_d_i_m_0_i_inst hL, scale_thermal_d_i_m_0_i_instp hL, scale_thermal_d_i_0_0_i_inst hL, scale_thermal_d_i_m_m_l_i_inst hL, scale_thermal_d_i_m_m_l_i_same_mass_inst hL, scale_thermal_d_i_m_m_l_i_same_mass_instp hL, scale_thermal_d_i_m_0_l_i_inst hL, scale_thermal_d_i_m_0_l_i_instp hL, scale_thermal_d_i_0_0_l_i_inst hL, scale_thermal_d_i_m_m_t_i_inst hL, scale_thermal_d_i_m_m_t_i_same_mass_inst hL, scale_thermal_d_i_m_0_t_i_inst hL, scale_thermal_d_i_0_0_t_i_inst hL, scale_thermal_zero_momentum_i_m_m_i_inst hL, scale_thermal_zero_momentum_i_m_m_i_same_mass_inst hL, scale_thermal_zero_momentum_i_m_0_i_inst hL, scale_thermal_zero_momentum_i_0_0_i_inst hL, scale_thermal_zero_momentum_i_m_m_l_i_inst hL, scale_thermal_zero_momentum_i_m_m_l_i_same_mass_inst hL, scale_thermal_zero_momentum_i_m_0_l_i_inst hL, scale_thermal_zero_momentum_i_0_0_l_i_inst hL, scale_thermal_zero_momentum_i_m_m_t_i_inst hL, scale_thermal_zero_momentum_i_m_m_t_i_same_mass_inst hL, scale_thermal_zero_momentum_i_m_0_t_i_inst hL, scale_thermal_zero_momentum_i_0_0_t_i_inst hL, scale_thermal_zero_momentum_d_i_m_m_i_inst hL, scale_thermal_zero_momentum_d_i_m_m_i_same_mass_inst hL, scale_thermal_zero_momentum_d_i_m_0_i_inst hL, scale_thermal_zero_momentum_d_i_0_0_i_inst hL, scale_thermal_zero_momentum_d_i_m_m_l_i_inst hL, scale_thermal_zero_momentum_d_i_m_m_l_i_same_mass_inst hL, scale_thermal_zero_momentum_d_i_m_0_l_i_inst hL, scale_thermal_zero_momentum_d_i_0_0_l_i_inst hL, scale_thermal_zero_momentum_d_i_m_m_t_i_inst hL, scale_thermal_zero_momentum_d_i_m_m_t_i_same_mass_inst hL, scale_thermal_zero_momentum_d_i_m_0_t_i_inst hL, scale_thermal_zero_momentum_d_i_0_0_t_i_inst hL, scale_thermal_zero_matsubara_i_m_m_i_inst hL, scale_thermal_zero_matsubara_i_m_m_i_same_mass_inst hL, scale_thermal_zero_matsubara_i_m_0_i_inst hL, scale_thermal_zero_matsubara_i_0_0_i hL, scale_thermal_zero_matsubara_i_m_m_l_i_inst hL, scale_thermal_zero_matsubara_i_m_m_l_i_same_mass_inst hL, scale_thermal_zero_matsubara_i_m_0_l_i_inst hL, scale_thermal_zero_matsubara_i_0_0_l_i hL, scale_thermal_zero_matsubara_i_m_m_t_i_inst hL, scale_thermal_zero_matsubara_i_m_m_t_i_same_mass_inst hL, scale_thermal_zero_matsubara_i_m_0_t_i_inst hL, scale_thermal_zero_matsubara_i_0_0_t_i hL, scale_thermal_zero_matsubara_d_i_m_m_i_inst hL, scale_thermal_zero_matsubara_d_i_m_m_i_same_mass_inst hL, scale_thermal_zero_matsubara_d_i_m_0_i_inst hL, scale_thermal_zero_matsubara_d_i_0_0_i hL, scale_thermal_zero_matsubara_d_i_m_m_l_i_inst hL, scale_thermal_zero_matsubara_d_i_m_m_l_i_same_mass_inst hL, scale_thermal_zero_matsubara_d_i_m_0_l_i_inst hL, scale_thermal_zero_matsubara_d_i_0_0_l_i hL, scale_thermal_zero_matsubara_d_i_m_m_t_i_inst hL, scale_thermal_zero_matsubara_d_i_m_m_t_i_same_mass_inst hL, scale_thermal_zero_matsubara_d_i_m_0_t_i_inst hL, scale_thermal_zero_matsubara_d_i_0_0_t_i hL, toC_complex, toC_real, ofR_complex, ofR_real, toC_ofR, toC_zero, toC_energy, toC_bose, map_mul, map_add, map_neg, map_sub, map_inv₀, map_div₀, map_zpow₀]
  try push_cast
  try simp only [scale_thermal_j_m_i_inst hL, scale_thermal_j_0_i hL, scale_thermal_j_m_l_i_inst hL, scale_thermal_j_0_l_i hL, scale_thermal_j_m_t_i_inst hL, scale_thermal_j_0_t_i hL, scale_thermal_i_m_m_i_inst hL, scale_thermal_i_m_m_i_same_mass_inst hL, scale_thermal_i_m_m_i_same_mass_instp hL, scale_thermal_i_m_0_i_inst hL, scale_thermal_i_m_0_i_instp hL, scale_thermal_i_0_0_i_inst hL, scale_thermal_i_m_m_l_i_inst hL, scale_thermal_i_m_m_l_i_same_mass_inst hL, scale_thermal_i_m_m_l_i_same_mass_instp hL, scale_thermal_i_m_0_l_i_inst hL, scale_thermal_i_m_0_l_i_instp hL, scale_thermal_i_0_0_l_i_inst hL, scale_thermal_i_0_0_l_i_instp hL, scale_thermal_i_m_m_t_i_inst hL, scale_thermal_i_m_m_t_i_same_mass_inst hL, scale_thermal_i_m_0_t_i_inst hL, scale_thermal_i_0_0_t_i_inst hL, scale_thermal_d_j_m_i_inst hL, scale_thermal_d_j_0_i hL, scale_thermal_d2_j_m_i_inst hL, scale_thermal_d2_j_0_i hL, scale_thermal_d_j_m_l_i_inst hL, scale_thermal_d_j_0_l_i hL, scale_thermal_d2_j_m_l_i_inst hL, scale_thermal_d2_j_0_l_i hL, scale_thermal_d_j_m_t_i_inst hL, scale_thermal_d_j_0_t_i hL, scale_thermal_d2_j_m_t_i_inst hL, scale_thermal_d2_j_0_t_i hL, scale_thermal_d_i_m_m_i_inst hL, scale_thermal_d_i_m_m_i_same_mass_inst hL, scale_thermal_d_i_m_m_i_same_mass_instp hL, scale_thermal_d_i_m_0_i_inst hL, scale_thermal_d_i_m_0_i_instp hL, scale_thermal_d_i_0_0_i_inst hL, scale_thermal_d_i_m_m_l_i_inst hL, scale_thermal_d_i_m_m_l_i_same_mass_inst hL, scale_thermal_d_i_m_m_l_i_same_mass_instp hL, scale_thermal_d_i_m_0_l_i_inst hL, scale_thermal_d_i_m_0_l_i_instp hL, scale_thermal_d_i_0_0_l_i_inst hL, scale_thermal_d_i_m_m_t_i_inst hL, scale_thermal_d_i_m_m_t_i_same_mass_inst hL, scale_thermal_d_i_m_0_t_i_inst hL, scale_thermal_d_i_0_0_t_i_inst hL, scale_thermal_zero_momentum_i_m_m_i_inst hL, scale_thermal_zero_momentum_i_m_m_i_same_mass_inst hL, scale_thermal_zero_momentum_i_m_0_i_inst hL, scale_thermal_zero_momentum_i_0_0_i_inst hL, scale_thermal_zero_momentum_i_m_m_l_i_inst hL, scale_thermal_zero_momentum_i_m_m_l_i_same_mass_inst hL, scale_thermal_zero_momentum_i_m_0_l_i_inst hL, scale_thermal_zero_momentum_i_0_0_l_i_inst hL, scale_thermal_zero_momentum_i_m_m_t_i_inst hL, scale_thermal_zero_momentum_i_m_m_t_i_same_mass_inst hL, scale_thermal_zero_momentum_i_m_0_t_i_inst hL, scale_thermal_zero_momentum_i_0_0_t_i_inst hL, scale_thermal_zero_momentum_d_i_m_m_i_inst hL, scale_thermal_zero_momentum_d_i_m_m_i_same_mass_inst hL, scale_thermal_zero_momentum_d_i_m_0_i_inst hL, scale_thermal_zero_momentum_d_i_0_0_i_inst hL, scale_thermal_zero_momentum_d_i_m_m_l_i_inst hL, scale_thermal_zero_momentum_d_i_m_m_l_i_same_mass_inst hL, scale_thermal_zero_momentum_d_i_m_0_l_i_inst hL, scale_thermal_zero_momentum_d_i_0_0_l_i_inst hL, scale_thermal_zero_momentum_d_i_m_m_t_i_inst hL, scale_thermal_zero_momentum_d_i_m_m_t_i_same_mass_inst hL, scale_thermal_zero_momentum_d_i_m_0_t_i_inst hL, scale_thermal_zero_momentum_d_i_0_0_t_i_inst hL, scale_thermal_zero_matsubara_i_m_m_i_inst hL, scale_thermal_zero_matsubara_i_m_m_i_same_mass_inst hL, scale_thermal_zero_matsubara_i_m_0_i_inst hL, scale_thermal_zero_matsubara_i_0_0_i hL, scale_thermal_zero_matsubara_i_m_m_l_i_inst hL, scale_thermal_zero_matsubara_i_m_m_l_i_same_mass_inst hL, scale_thermal_zero_matsubara_i_m_0_l_i_inst hL, scale_thermal_zero_matsubara_i_0_0_l_i hL, scale_thermal_zero_matsubara_i_m_m_t_i_inst hL, scale_thermal_zero_matsubara_i_m_m_t_i_same_mass_inst hL, scale_thermal_zero_matsubara_i_m_0_t_i_inst hL, scale_thermal_zero_matsubara_i_0_0_t_i hL, scale_thermal_zero_matsubara_d_i_m_m_i_inst hL, scale_thermal_zero_matsubara_d_i_m_m_i_same_mass_inst hL, scale_thermal_zero_matsubara_d_i_m_0_i_inst hL, scale_thermal_zero_matsubara_d_i_0_0_i hL, scale_thermal_zero_matsubara_d_i_m_m_l_i_inst hL, scale_thermal_zero_matsubara_d_i_m_m_l_i_same_mass_inst hL, scale_thermal_zero_matsubara_d_i_m_0_l_i_inst hL, scale_thermal_zero_matsubara_d_i_0_0_l_i hL, scale_thermal_zero_matsubara_d_i_m_m_t_i_inst hL, scale_thermal_zero_matsubara_d_i_m_m_t_i_same_mass_inst hL, scale_thermal_zero_matsubara_d_i_m_0_t_i_inst hL, scale_thermal_zero_matsubara_d_i_0_0_t_i hL]
  field_simp
  try ring

theorem scale_ghost_thermal_zero_momentum_self_energy_thermal_part_landau_i {L : ℝ} (hL : 0 < L) (q : ℝ) (om : T) (m : ℝ) (beta : ℝ) :
    ghost.thermal.zero_momentum.self_energy_thermal_part_landau_i (L * q) (ofR L * om) (L * m) (beta / L) = (L : ℂ) ^ (1 : ℤ) * ghost.thermal.zero_momentum.self_energy_thermal_part_landau_i q om m beta := by
  have hL0 : (L : ℂ) ≠ 0 := Complex.ofReal_ne_zero.2 hL.ne'
  rw [toC_ghost_thermal_zero_momentum_self_energy_thermal_part_landau_i (L * q) (ofR L * om) (L * m) (beta / L), toC_ghost_thermal_zero_momentum_self_energy_thermal_part_landau_i q om m beta]
  simp only [ghost.thermal.zero_momentum.self_energy_thermal_part_landau_i, scale_thermal_j_m_i_inst hL, scale_thermal_j_0_i hL, scale_thermal_j_m_l_i_inst hL, scale_thermal_j_0_l_i hL, scale_thermal_j_m_t_i_inst hL, scale_thermal_j_0_t_i hL, scale_thermal_i_m_m_i_inst hL, scale_thermal_i_m_m_i_same_mass_inst hL, scale_thermal_i_m_m_i_same_mass_instp hL, scale_thermal_i_m_0_i_inst hL, scale_thermal_i_m_0_i_instp hL, scale_thermal_i_0_0_i_inst hL, scale_thermal_i_m_m_l_i_inst hL, scale_thermal_i_m_m_l_i_same_mass_inst hL, scale_thermal_i_m_m_l_i_same_mass_instp hL, scale_thermal_i_m_0_l_i_inst hL, scale_thermal_i_m_0_l_i_instp hL, scale_thermal_i_0_0_l_i_inst hL, scale_thermal_i_0_0_l_i_instp hL, scale_thermal_i_m_m_t_i_inst hL, scale_thermal_i_m_m_t_i_same_mass_inst hL, scale_thermal_i_m_0_t_i_inst hL, scale_thermal_i_0_0_t_i_inst hL, scale_thermal_d_j_m_i_inst hL, scale_thermal_d_j_0_i hL, scale_thermal_d2_j_m_i_inst hL, scale_thermal_d2_j_0_i hL, scale_thermal_d_j_m_l_i_inst hL, scale_thermal_d_j_0_l_i hL, scale_thermal_d2_j_m_l_i_inst hL, scale_thermal_d2_j_0_l_i hL, scale_thermal_d_j_m_t_i_inst hL, scale_thermal_d_j_0_t_i hL, scale_thermal_d2_j_m_t_i_inst hL, scale_thermal_d2_j_0_t_i hL, scale_thermal_d_i_m_m_i_inst hL, scale_thermal_d_i_m_m_i_same_mass_inst hL, scale_thermal_d_i_m_m_i_same_mass_instp hL, scale_thermal_d_i_m_0_i_inst hL, scale_thermal_d_i_m_0_i_instp hL, scale_thermal_d_i_0_0_i_inst hL, scale_thermal_d_i_m_m_l_i_inst hL, scale_thermal_d_i_m_m_l_i_same_mass_inst hL, scale_thermal_d_i_m_m_l_i_same_mass_instp hL, scale_thermal_d_i_m_0_l_i_inst hL, scale_thermal_d_i_m_0_l_i_instp hL, scale_thermal_d_i_0_0_l_i_inst hL, scale_thermal_d_i_m_m_t_i_inst hL, scale_thermal_d_i_m_m_t_i_same_mass_inst hL, scale_thermal_d_i_m_0_t_i_inst hL, scale_thermal_d_i_0_0_t_i_inst hL, scale_thermal_zero_momentum_i_m_m_i_inst hL, scale_thermal_zero_momentum_i_m_m_i_same_mass_inst hL, scale_thermal_zero_momentum_i_m_0_i_inst hL, scale_thermal_zero_momentum_i_0_0_i_inst hL, scale_thermal_zero_momentum_i_m_m_l_i_inst hL, scale_thermal_zero_momentum_i_m_m_l_i_same_mass_inst hL, scale_thermal_zero_momentum_i_m_0_l_i_inst hL, scale_thermal_zero_momentum_i_0_0_l_i_inst hL, scale_thermal_zero_momentum_i_m_m_t_i_inst hL, scale_thermal_zero_momentum_i_m_m_t_i_same_mass_inst hL, scale_thermal_zero_momentum_i_m_0_t_i_inst hL, scale_thermal_zero_momentum_i_0_0_t_i_inst hL, scale_thermal_zero_momentum_d_i_m_m_i_inst hL, scale_thermal_zero_momentum_d_i_m_m_i_same_mass_inst hL, scale_thermal_zero_momentum_d_i_m_0_i_inst hL, scale_thermal_zero_momentum_d_i_0_0_i_inst hL, scale_thermal_zero_momentum_d_i_m_m_l_i_inst hL, scale_thermal_zero_momentum_d_i_m_m_l_i_same_mass_inst hL, scale_thermal_zero_momentum_d_i_m_0_l_i_inst hL, scale_thermal_zero_momentum_d_i_0_0_l_i_inst hL, scale_thermal_zero_momentum_d_i_m_m_t_i_inst hL, scale_thermal_zero_momentum_d_i_m_m_t_i_same_mass_inst hL, scale_thermal_zero_momentum_d_i_m_0_t_i_inst hL, scale_thermal_zero_momentum_d_i_0_0_t_i_inst hL, scale_thermal_zero_matsubara_i_m_m_i_inst hL, scale_thermal_zero_matsubara_i_m_m_i_same_mass_inst hL, scale_thermal_zero_matsubara_i_m_0_i_inst hL, scale_thermal_zero_matsubara_i_0_0_i hL, scale_thermal_zero_matsubara_i_m_m_l_i_inst hL, scale_thermal_zero_matsubara_i_m_m_l_i_same_mass_inst hL, scale_thermal_zero_matsubara_i_m_0_l_i_inst hL, scale_thermal_zero_matsubara_i_0_0_l_i hL, scale_thermal_zero_matsubara_i_m_m_t_i_inst hL, scale_thermal_zero_matsubara_i_m_m_t_i_same_mass_inst hL, scale_thermal_zero_matsubara_i_m_0_t_i_inst hL, scale_thermal_zero_matsubara_i_0_0_t_i hL, scale_thermal_zero_matsubara_d_i_m_m_i_inst hL, scale_thermal_zero_matsubara_d_i_m_m_i_same_mass_inst hL, scale_thermal_zero_matsubara_d_i_m_0_i_inst hL, scale_thermal_zero_matsubara_d_i_0_0_i hL, scale_thermal_zero_matsubara_d_i_m_m_l_i_inst hL, scale_thermal_zero_matsubara_d_i_m_m_l_i_same_mass_inst hL, scale_thermal_zero_matsubara_d_i_m_0_l_i_inst hL, scale_thermal_zero_matsubara_d_i_0_0_l_i hL, scale_thermal_zero_matsubara_d_i_m_m_t_i_inst hL, scale_thermal_zero_matsubara_d_i_m_m_t_i_same_mass_inst hL, scale_thermal_zero_matsubara_d_i_m_0_t_i_inst hL, scale_thermal_zero_matsubara_d_i_0_0_t_i hL, toC_complex, toC_real, ofR_complex, ofR_real, toC_ofR, toC_zero, toC_energy, toC_bose, map_mul, map_add, map_neg, map_sub, map_inv₀, map_div₀, map_zpow₀]
  try push_cast
  try simp only [scale_thermal_j_m_i_inst hL, scale_thermal_j_0_i hL, scale_thermal_j_m_l_i_inst hL, scale_thermal_j_0_l_i hL, scale_thermal_j_m_t_i_inst hL, scale_thermal_j_0_t_i hL, scale_thermal_i_m_m_i_inst hL, scale_thermal_i_m_m_i_same_mass_inst hL, scale_thermal_i_m_m_i_same_mass_instp hL, scale_thermal_i_m_0_i_inst hL, scale_thermal_i_m_0_i_instp hL, scale_thermal_i_0_0_i_inst hL, scale_thermal_i_m_m_l_i_inst hL, scale_thermal_i_m_m_l_i_same_mass_inst hL, scale_thermal_i_m_m_l_i_same_mass_instp hL, scale_thermal_i_m_0_l_i_inst hL, scale_thermal_i_m_0_l_i_instp hL, scale_thermal_i_0_0_l_i_inst hL, scale_thermal_i_0_0_l_i_instp hL, scale_thermal_i_m_m_t_i_inst hL, scale_thermal_i_m_m_t_i_same_mass_inst hL, scale_thermal_i_m_0_t_i_inst hL, scale_thermal_i_0_0_t_i_inst hL, scale_thermal_d_j_m_i_inst hL, scale_thermal_d_j_0_i hL, scale_thermal_d2_j_m_i_inst hL, scale_thermal_d2_j_0_i hL, scale_thermal_d_j_m_l_i_inst hL, scale_thermal_d_j_0_l_i hL, scale_thermal_d2_j_m_l_i_inst hL, scale_thermal_d2_j_0_l_i hL, scale_thermal_d_j_m_t_i_inst hL, scale_thermal_d_j_0_t_i hL, scale_thermal_d2_j_m_t_i_inst hL, scale_thermal_d2_j_0_t_i hL, scale_thermal_d_i_m_m_i_inst hL, scale_thermal_d_i_m_m_i_same_mass_inst hL, scale_thermal_d_i_m_m_i_same_mass_instp hL, scale_thermal_d_i_m_0_i_inst hL, scale_thermal_d_i_m_0_i_instp hL, scale_thermal_d_i_0_0_i_inst hL, scale_thermal_d_i_m_m_l_i_inst hL, scale_thermal_d_i_m_m_l_i_same_mass_inst hL, scale_thermal_d_i_m_m_l_i_same_mass_instp hL, scale_thermal_d_i_m_0_l_i_inst hL, scale_thermal_d_i_m_0_l_i_instp hL, scale_thermal_d_i_0_0_l_i_inst hL, scale_thermal_d_i_m_m_t_i_inst hL, scale_thermal_d_i_m_m_t_i_same_mass_inst hL, scale_thermal_d_i_m_0_t_i_inst hL, scale_thermal_d_i_0_0_t_i_inst hL, scale_thermal_zero_momentum_i_m_m_i_inst hL, scale_thermal_zero_momentum_i_m_m_i_same_mass_inst hL, scale_thermal_zero_momentum_i_m_0_i_inst hL, scale_thermal_zero_momentum_i_0_0_i_inst hL, scale_thermal_zero_momentum_i_m_m_l_i_inst hL, scale_thermal_zero_momentum_i_m_m_l_i_same_mass_inst hL, scale_thermal_zero_momentum_i_m_0_l_i_inst hL, scale_thermal_zero_momentum_i_0_0_l_i_inst hL, scale_thermal_zero_momentum_i_m_m_t_i_inst hL, scale_thermal_zero_momentum_i_m_m_t_i_same_mass_inst hL, scale_thermal_zero_momentum_i_m_0_t_i_inst hL, scale_thermal_zero_momentum_i_0_0_t_i_inst hL, scale_thermal_zero_momentum_d_i_m_m_i_inst hL, scale_thermal_zero_momentum_d_i_m_m_i_same_mass_inst hL, scale_thermal_zero_momentum_d_i_m_0_i_inst hL, scale_thermal_zero_momentum_d_i_0_0_i_inst hL, scale_thermal_zero_momentum_d_i_m_m_l_i_inst hL, scale_thermal_zero_momentum_d_i_m_m_l_i_same_mass_inst hL, scale_thermal_zero_momentum_d_i_m_0_l_i_inst hL, scale_thermal_zero_momentum_d_i_0_0_l_i_inst hL, scale_thermal_zero_momentum_d_i_m_m_t_i_inst hL, scale_thermal_zero_momentum_d_i_m_m_t_i_same_mass_inst hL, scale_thermal_zero_momentum_d_i_m_0_t_i_inst hL, scale_thermal_zero_momentum_d_i_0_0_t_i_inst hL, scale_thermal_zero_matsubara_i_m_m_i_inst hL, scale_thermal_zero_matsubara_i_m_m_i_same_mass_inst hL, scale_thermal_zero_matsubara_i_m_0_i_inst hL, scale_thermal_zero_matsubara_i_0_0_i hL, scale_thermal_zero_matsubara_i_m_m_l_i_inst hL, scale_thermal_zero_matsubara_i_m_m_l_i_same_mass_inst hL, scale_thermal_zero_matsubara_i_m_0_l_i_inst hL, scale_thermal_zero_matsubara_i_0_0_l_i hL, scale_thermal_zero_matsubara_i_m_m_t_i_inst hL, scale_thermal_zero_matsubara_i_m_m_t_i_same_mass_inst hL, scale_thermal_zero_matsubara_i_m_0_t_i_inst hL, scale_thermal_zero_matsubara_i_0_0_t_i hL, scale_thermal_zero_matsubara_d_i_m_m_i_inst hL, scale_thermal_zero_matsubara_d_i_m_m_i_same_mass_inst hL, scale_thermal_zero_matsubara_d_i_m_0_i_inst hL, scale_thermal_zero_matsubara_d_i_0_0_i hL, scale_thermal_zero_matsubara_d_i_m_m_l_i_inst hL, scale_thermal_zero_matsubara_d_i_m_m_l_i_same_mass_inst hL, scale_thermal_zero_matsubara_d_i_m_0_l_i_inst hL, scale_thermal_zero_matsubara_d_i_0_0_l_i hL, scale_thermal_zero_matsubara_d_i_m_m_t_i_inst hL, scale_thermal_zero_matsubara_d_i_m_m_t_i_same_mass_inst hL, scale_thermal_zero_matsubara_d_i_m_0_t_i_inst hL, scale_thermal_zero_matsubara_d_i_0_0_t_i hL]
  field_simp
  try ring

theorem scale_ghost_thermal_zero_matsubara_self_energy_thermal_part_landau_i {L : ℝ} (hL : 0 < L) (q : ℝ) (p : ℝ) (m : ℝ) (beta : ℝ) :
    ghost.thermal.zero_matsubara.self_energy_thermal_part_landau_i (L * q) (L * p) (L * m) (beta / L) = (L : ℂ) ^ (1 : ℤ) * ghost.thermal.zero_matsubara.self_energy_thermal_part_landau_i q p m beta := by
  have hL0 : (L : ℂ) ≠ 0 := Complex.ofReal_ne_zero.2 hL.ne'
  simp only [ghost.thermal.zero_matsubara.self_energy_thermal_part_landau_i, scale_thermal_j_m_i_inst hL, scale_thermal_j_0_i hL, scale_thermal_j_m_l_i_inst hL, scale_thermal_j_0_l_i hL, scale_thermal_j_m_t_i_inst hL, scale_thermal_j_0_t_i hL, scale_thermal_i_m_m_i_inst hL, scale_thermal_i_m_m_i_same_mass_inst hL, scale_thermal_i_m_m_i_same_mass_instp hL, scale_thermal_i_m_0_i_inst hL, scale_thermal_i_m_0_i_instp hL, scale_thermal_i_0_0_i_inst hL, scale_thermal_i_m_m_l_i_inst hL, scale_thermal_i_m_m_l_i_same_mass_inst hL, scale_thermal_i_m_m_l_i_same_mass_instp hL, scale_thermal_i_m_0_l_i_inst hL, scale_thermal_i_m_0_l_i_instp hL, scale_thermal_i_0_0_l_i_inst hL, scale_thermal_i_0_0_l_i_instp hL, scale_thermal_i_m_m_t_i_inst hL, scale_thermal_i_m_m_t_i_same_mass_inst hL, scale_thermal_i_m_0_t_i_inst hL, scale_thermal_i_0_0_t_i_inst hL, scale_thermal_d_j_m_i_inst hL, scale_thermal_d_j_0_i hL, scale_thermal_d2_j_m_i_inst hL, scale_thermal_d2_j_0_i hL, scale_thermal_d_j_m_l_i_inst hL, scale_thermal_d_j_0_l_i hL, scale_thermal_d2_j_m_l_i_inst hL, scale_thermal_d2_j_0_l_i hL, scale_thermal_d_j_m_t_i_inst hL, scale_thermal_d_j_0_t_i hL, scale_thermal_d2_j_m_t_i_inst hL, scale_thermal_d2_j_0_t_i hL, scale_thermal_d_i_m_m_i_inst hL, scale_thermal_d_i_m_m_i_same_mass_inst hL, scale_thermal_d_i_m_m_i_same_mass_instp hL, scale_thermal_d_i_m_0_i_inst hL, scale_thermal_d_i_m_0_i_instp hL, scale_thermal_d_i_0_0_i_inst hL, scale_thermal_d_i_m_m_l_i_inst hL, scale_thermal_d_i_m_m_l_i_same_mass_inst hL, scale_thermal_d_i_m_m_l_i_same_mass_instp hL, scale_thermal_d_i_m_0_l_i_inst hL, scale_thermal_d_i_m_0_l_i_instp hL, scale_thermal_d_i_0_0_l_i_inst hL, scale_thermal_d_i_m_m_t_i_inst hL, scale_thermal_d_i_m_m_t_i_same_mass_inst hL, scale_thermal_d_i_m_0_t_i_inst hL, scale_thermal_d_i_0_0_t_i_inst hL, scale_thermal_zero_momentum_i_m_m_i_inst hL, scale_thermal_zero_momentum_i_m_m_i_same_mass_inst hL, scale_thermal_zero_momentum_i_m_0_i_inst hL, scale_thermal_zero_momentum_i_0_0_i_inst hL, scale_thermal_zero_momentum_i_m_m_l_i_inst hL, scale_thermal_zero_momentum_i_m_m_l_i_same_mass_inst hL, scale_thermal_zero_momentum_i_m_0_l_i_inst hL, scale_thermal_zero_momentum_i_0_0_l_i_inst hL, scale_thermal_zero_momentum_i_m_m_t_i_inst hL, scale_thermal_zero_momentum_i_m_m_t_i_same_mass_inst hL, scale_thermal_zero_momentum_i_m_0_t_i_inst hL, scale_thermal_zero_momentum_i_0_0_t_i_inst hL, scale_thermal_zero_momentum_d_i_m_m_i_inst hL, scale_thermal_zero_momentum_d_i_m_m_i_same_mass_inst hL, scale_thermal_zero_momentum_d_i_m_0_i_inst hL, scale_thermal_zero_momentum_d_i_0_0_i_inst hL, scale_thermal_zero_momentum_d_i_m_m_l_i_inst hL, scale_thermal_zero_momentum_d_i_m_m_l_i_same_mass_inst hL, scale_thermal_zero_momentum_d_i_m_0_l_i_inst hL, scale_thermal_zero_momentum_d_i_0_0_l_i_inst hL, scale_thermal_zero_momentum_d_i_m_m_t_i_inst hL, scale_thermal_zero_momentum_d_i_m_m_t_i_same_mass_inst hL, scale_thermal_zero_momentum_d_i_m_0_t_i_inst hL, scale_thermal_zero_momentum_d_i_0_0_t_i_inst hL, scale_thermal_zero_matsubara_i_m_m_i_inst hL, scale_thermal_zero_matsubara_i_m_m_i_same_mass_inst hL, scale_thermal_zero_matsubara_i_m_0_i_inst hL, scale_thermal_zero_matsubara_i_0_0_i hL, scale_thermal_zero_matsubara_i_m_m_l_i_inst hL, scale_thermal_zero_matsubara_i_m_m_l_i_same_mass_inst hL, scale_thermal_zero_matsubara_i_m_0_l_i_inst hL, scale_thermal_zero_matsubara_i_0_0_l_i hL, scale_thermal_zero_matsubara_i_m_m_t_i_inst hL, scale_thermal_zero_matsubara_i_m_m_t_i_same_mass_inst hL, scale_thermal_zero_matsubara_i_m_0_t_i_inst hL, scale_thermal_zero_matsubara_i_0_0_t_i hL, scale_thermal_zero_matsubara_d_i_m_m_i_inst hL, scale_thermal_zero_matsubara_d_i_m_m_i_same_mass_inst hL, scale_thermal_zero_matsubara_d_i_m_0_i_inst hL, scale_thermal_zero_matsubara_d_i_0_0_i hL, scale_thermal_zero_matsubara_d_i_m_m_l_i_inst hL, scale_thermal_zero_matsubara_d_i_m_m_l_i_same_mass_inst hL, scale_thermal_zero_matsubara_d_i_m_0_l_i_inst hL, scale_thermal_zero_matsubara_d_i_0_0_l_i hL, scale_thermal_zero_matsubara_d_i_m_m_t_i_inst hL, scale_thermal_zero_matsubara_d_i_m_m_t_i_same_mass_inst hL, scale_thermal_zero_matsubara_d_i_m_0_t_i_inst hL, scale_thermal_zero_matsubara_d_i_0_0_t_i hL, toC_complex, toC_real, ofR_complex, ofR_real, toC_ofR, toC_zero, toC_energy, toC_bose, map_mul, map_add, map_neg, map_sub, map_inv₀, map_div₀, map_zpow₀]
  try push_cast
  try simp only [scale_thermal_j_m_i_inst hL, scale_thermal_j_0_i hL, scale_thermal_j_m_l_i_inst hL, scale_thermal_j_0_l_i hL, scale_thermal_j_m_t_i_inst hL, scale_thermal_j_0_t_i hL, scale_thermal_i_m_m_i_inst hL, scale_thermal_i_m_m_i_same_mass_inst hL, scale_thermal_i_m_m_i_same_mass_instp hL, scale_thermal_i_m_0_i_inst hL, scale_thermal_i_m_0_i_instp hL, scale_thermal_i_0_0_i_inst hL, scale_thermal_i_m_m_l_i_inst hL, scale_thermal_i_m_m_l_i_same_mass_inst hL, scale_thermal_i_m_m_l_i_same_mass_instp hL, scale_thermal_i_m_0_l_i_inst hL, scale_thermal_i_m_0_l_i_instp hL, scale_thermal_i_0_0_l_i_inst hL, scale_thermal_i_0_0_l_i_instp hL, scale_thermal_i_m_m_t_i_inst hL, scale_thermal_i_m_m_t_i_same_mass_inst hL, scale_thermal_i_m_0_t_i_inst hL, scale_thermal_i_0_0_t_i_inst hL, scale_thermal_d_j_m_i_inst hL, scale_thermal_d_j_0_i hL, scale_thermal_d2_j_m_i_inst hL, scale_thermal_d2_j_0_i hL, scale_thermal_d_j_m_l_i_inst hL, scale_thermal_d_j_0_l_i hL, scale_thermal_d2_j_m_l_i_inst hL, scale_thermal_d2_j_0_l_i hL, scale_thermal_d_j_m_t_i_inst hL, scale_thermal_d_j_0_t_i hL, scale_thermal_d2_j_m_t_i_inst hL, scale_thermal_d2_j_0_t_i hL, scale_thermal_d_i_m_m_i_inst hL, scale_thermal_d_i_m_m_i_same_mass_inst hL, scale_thermal_d_i_m_m_i_same_mass_instp hL, scale_thermal_d_i_m_0_i_inst hL, scale_thermal_d_i_m_0_i_instp hL, scale_thermal_d_i_0_0_i_inst hL, scale_thermal_d_i_m_m_l_i_inst hL, scale_thermal_d_i_m_m_l_i_same_mass_inst hL, scale_thermal_d_i_m_m_l_i_same_mass_instp hL, scale_thermal_d_i_m_0_l_i_inst hL, scale_thermal_d_i_m_0_l_i_instp hL, scale_thermal_d_i_0_0_l_i_inst hL, scale_thermal_d_i_m_m_t_i_inst hL, scale_thermal_d_i_m_m_t_i_same_mass_inst hL, scale_thermal_d_i_m_0_t_i_inst hL, scale_thermal_d_i_0_0_t_i_inst hL, scale_thermal_zero_momentum_i_m_m_i_inst hL, scale_thermal_zero_momentum_i_m_m_i_same_mass_inst hL, scale_thermal_zero_momentum_i_m_0_i_inst hL, scale_thermal_zero_momentum_i_0_0_i_inst hL, scale_thermal_zero_momentum_i_m_m_l_i_inst hL, scale_thermal_zero_momentum_i_m_m_l_i_same_mass_inst hL, scale_thermal_zero_momentum_i_m_0_l_i_inst hL, scale_thermal_zero_momentum_i_0_0_l_i_inst hL, scale_thermal_zero_momentum_i_m_m_t_i_inst hL, scale_thermal_zero_momentum_i_m_m_t_i_same_mass_inst hL, scale_thermal_zero_momentum_i_m_0_t_i_inst hL, scale_thermal_zero_momentum_i_0_0_t_i_inst hL, scale_thermal_zero_momentum_d_i_m_m_i_inst hL, scale_thermal_zero_momentum_d_i_m_m_i_same_mass_inst hL, scale_thermal_zero_momentum_d_i_m_0_i_inst hL, scale_thermal_zero_momentum_d_i_0_0_i_inst hL, scale_thermal_zero_momentum_d_i_m_m_l_i_inst hL, scale_thermal_zero_momentum_d_i_m_m_l_i_same_mass_inst hL, scale_thermal_zero_momentum_d_i_m_0_l_i_inst hL, scale_thermal_zero_momentum_d_i_0_0_l_i_inst hL, scale_thermal_zero_momentum_d_i_m_m_t_i_inst hL, scale_thermal_zero_momentum_d_i_m_m_t_i_same_mass_inst hL, scale_thermal_zero_momentum_d_i_m_0_t_i_inst hL, scale_thermal_zero_momentum_d_i_0_0_t_i_inst hL, scale_thermal_zero_matsubara_i_m_m_i_inst hL, scale_thermal_zero_matsubara_i_m_m_i_same_mass_inst hL, scale_thermal_zero_matsubara_i_m_0_i_inst hL, scale_thermal_zero_matsubara_i_0_0_i hL, scale_thermal_zero_matsubara_i_m_m_l_i_inst hL, scale_thermal_zero_matsubara_i_m_m_l_i_same_mass_inst hL, scale_thermal_zero_matsubara_i_m_0_l_i_inst hL, scale_thermal_zero_matsubara_i_0_0_l_i hL, scale_thermal_zero_matsubara_i_m_m_t_i_inst hL, scale_thermal_zero_matsubara_i_m_m_t_i_same_mass_inst hL, scale_thermal_zero_matsubara_i_m_0_t_i_inst hL, scale_thermal_zero_matsubara_i_0_0_t_i hL, scale_thermal_zero_matsubara_d_i_m_m_i_inst hL, scale_thermal_zero_matsubara_d_i_m_m_i_same_mass_inst hL, scale_thermal_zero_matsubara_d_i_m_0_i_inst hL, scale_thermal_zero_matsubara_d_i_0_0_i hL, scale_thermal_zero_matsubara_d_i_m_m_l_i_inst hL, scale_thermal_zero_matsubara_d_i_m_m_l_i_same_mass_inst hL, scale_thermal_zero_matsubara_d_i_m_0_l_i_inst hL, scale_thermal_zero_matsubara_d_i_0_0_l_i hL, scale_thermal_zero_matsubara_d_i_m_m_t_i_inst hL, scale_thermal_zero_matsubara_d_i_m_m_t_i_same_mass_inst hL, scale_thermal_zero_matsubara_d_i_m_0_t_i_inst hL, scale_thermal_zero_matsubara_d_i_0_0_t_i hL]
  field_simp
  try ring

theorem scale_gluon_thermal_polarization_glue_l_thermal_part_landau_i {L : ℝ} (hL : 0 < L) (q : ℝ) (om : T1) (p : T2) (m : ℝ) (beta : ℝ) :
    gluon.thermal.polarization_glue_l_thermal_part_landau_i (L * q) (ofR L * om) (ofR L * p) (L * m) (beta / L) = (L : ℂ) ^ (1 : ℤ) * gluon.thermal.polarization_glue_l_thermal_part_landau_i q om p m beta := by
  have hL0 : (L : ℂ) ≠ 0 := Complex.ofReal_ne_zero.2 hL.ne'
  rw [toC_gluon_thermal_polarization_glue_l_thermal_part_landau_i (L * q) (ofR L * om) (ofR L * p) (L * m) (beta / L), toC_gluon_thermal_polarization_glue_l_thermal_part_landau_i q om p m beta]
  simp only [gluon.thermal.polarization_glue_l_thermal_part_landau_i, scale_thermal_j_m_i_inst hL, scale_thermal_j_0_i hL, scale_thermal_j_m_l_i_inst hL, scale_thermal_j_0_l_i hL, scale_thermal_j_m_t_i_inst hL, scale_thermal_j_0_t_i hL, scale_thermal_i_m_m_i_inst hL, scale_thermal_i_m_m_i_same_mass_inst hL, scale_thermal_i_m_m_i_same_mass_instp hL, scale_thermal_i_m_0_i_inst hL, scale_thermal_i_m_0_i_instp hL, scale_thermal_i_0_0_i_inst hL, scale_thermal_i_m_m_l_i_inst hL, scale_thermal_i_m_m_l_i_same_mass_inst hL, scale_thermal_i_m_m_l_i_same_mass_instp hL, scale_thermal_i_m_0_l_i_inst hL, scale_thermal_i_m_0_l_i_instp hL, scale_thermal_i_0_0_l_i_inst hL, scale_thermal_i_0_0_l_i_instp hL, scale_thermal_i_m_m_t_i_inst hL, scale_thermal_i_m_m_t_i_same_mass_inst hL, scale_thermal_i_m_0_t_i_inst hL, scale_thermal_i_0_0_t_i_inst hL, scale_thermal_d_j_m_i_inst hL, scale_thermal_d_j_0_i hL, scale_thermal_d2_j_m_i_inst hL, scale_thermal_d2_j_0_i hL, scale_thermal_d_j_m_l_i_inst hL, scale_thermal_d_j_0_l_i hL, scale_thermal_d2_j_m_l_i_inst hL, scale_thermal_d2_j_0_l_i hL, scale_thermal_d_j_m_t_i_inst hL, scale_thermal_d_j_0_t_i hL, scale_thermal_d2_j_m_t_i_inst hL, scale_thermal_d2_j_0_t_i hL, scale_thermal_d_i_m_m_i_inst hL, scale_thermal_d_i_m_m_i_same_mass_inst hL, scale_thermal_d_i_m_m_i_same_mass_instp hL, scale_thermal_d_i_m_0_i_inst hL, scale_thermal_d_i_m_0_i_instp hL, scale_thermal_d_i_0_0_i_inst hL, scale_thermal_d_i_m_m_l_i_inst hL, scale_thermal_d_i_m_m_l_i_same_mass_inst hL, scale_thermal_d_i_m_m_l_i_same_mass_instp hL, scale_thermal_d_i_m_0_l_i_inst hL, scale_thermal_d_i_m_0_l_i_instp hL, scale_thermal_d_i_0_0_l_i_inst hL, scale_thermal_d_i_m_m_t_i_inst hL, scale_thermal_d_i_m_m_t_i_same_mass_inst hL, scale_thermal_d_i_m_0_t_i_inst hL, scale_thermal_d_i_0_0_t_i_inst hL, scale_thermal_zero_momentum_i_m_m_i_inst hL, scale_thermal_zero_momentum_i_m_m_i_same_mass_inst hL, scale_thermal_zero_momentum_i_m_0_i_inst hL, scale_thermal_zero_momentum_i_0_0_i_inst hL, scale_thermal_zero_momentum_i_m_m_l_i_inst hL, scale_thermal_zero_momentum_i_m_m_l_i_same_mass_inst hL, scale_thermal_zero_momentum_i_m_0_l_i_inst hL, scale_thermal_zero_momentum_i_0_0_l_i_inst hL, scale_thermal_zero_momentum_i_m_m_t_i_inst hL, scale_thermal_zero_momentum_i_m_m_t_i_same_mass_inst hL, scale_thermal_zero_momentum_i_m_0_t_i_inst hL, scale_thermal_zero_momentum_i_0_0_t_i_inst hL, scale_thermal_zero_momentum_d_i_m_m_i_inst hL, scale_thermal_zero_momentum_d_i_m_m_i_same_mass_inst hL, scale_thermal_zero_momentum_d_i_m_0_i_inst hL, scale_thermal_zero_momentum_d_i_0_0_i_inst hL, scale_thermal_zero_momentum_d_i_m_m_l_i_inst hL, scale_thermal_zero_momentum_d_i_m_m_l_i_same_mass_inst hL, scale_thermal_zero_momentum_d_i_m_0_l_i_inst hL, scale_thermal_zero_momentum_d_i_0_0_l_i_inst hL, scale_thermal_zero_momentum_d_i_m_m_t_i_inst hL, scale_thermal_zero_momentum_d_i_m_m_t_i_same_mass_inst hL, scale_thermal_zero_momentum_d_i_m_0_t_i_inst hL, scale_thermal_zero_momentum_d_i_0_0_t_i_inst hL, scale_thermal_zero_matsubara_i_m_m_i_inst hL, scale_thermal_zero_matsubara_i_m_m_i_same_mass_inst hL, scale_thermal_zero_matsubara_i_m_0_i_inst hL, scale_thermal_zero_matsubara_i_0_0_i hL, scale_thermal_zero_matsubara_i_m_m_l_i_inst hL, scale_thermal_zero_matsubara_i_m_m_l_i_same_mass_inst hL, scale_thermal_zero_matsubara_i_m_0_l_i_inst hL, scale_thermal_zero_matsubara_i_0_0_l_i hL, scale_thermal_zero_matsubara_i_m_m_t_i_inst hL, scale_thermal_zero_matsubara_i_m_m_t_i_same_mass_inst hL, scale_thermal_zero_matsubara_i_m_0_t_i_inst hL, scale_thermal_zero_matsubara_i_0_0_t_i hL, scale_thermal_zero_matsubara_d_i_m_m_i_inst hL, scale_thermal_zero_matsubara_d_i_m_m_i_same_mass_inst hL, scale_thermal_zero_matsubara_d_i_m_0_i_inst hL, scale_thermal_zero_matsubara_d_i_0_0_i hL, scale_thermal_zero_matsubara_d_i_m_m_l_i_inst hL, scale_thermal_zero_matsubara_d_i_m_m_l_i_same_mass_inst hL, scale_thermal_zero_matsubara_d_i_m_0_l_i_inst hL, scale_thermal_zero_matsubara_d_i_0_0_l_i hL, scale_thermal_zero_matsubara_d_i_m_m_t_i_inst hL, scale_thermal_zero_matsubara_d_i_m_m_t_i_same_mass_inst hL, scale_thermal_zero_matsubara_d_i_m_0_t_i_inst hL, scale_thermal_zero_matsubara_d_i_0_0_t_i hL, toC_complex, toC_real, ofR_complex, ofR_real, toC_ofR, toC_zero, toC_energy, toC_bose, map_mul, map_add, map_neg, map_sub, map_inv₀, map_div₀, map_zpow₀]
  try push_cast
  try simp only [scale_thermal_j_m_i_inst hL, scale_thermal_j_0_i hL, scale_thermal_j_m_l_i_inst hL, scale_thermal_j_0_l_i hL, scale_thermal_j_m_t_i_inst hL, scale_thermal_j_0_t_i hL, scale_thermal_i_m_m_i_inst hL, scale_thermal_i_m_m_i_same_mass_inst hL, scale_thermal_i_m_m_i_same_mass_instp hL, scale_thermal_i_m_0_i_inst hL, scale_thermal_i_m_0_i_instp hL, scale_thermal_i_0_0_i_inst hL, scale_thermal_i_m_m_l_i_inst hL, scale_thermal_i_m_m_l_i_same_mass_inst hL, scale_thermal_i_m_m_l_i_same_mass_instp hL, scale_thermal_i_m_0_l_i_inst hL, scale_thermal_i_m_0_l_i_instp hL, scale_thermal_i_0_0_l_i_inst hL, scale_thermal_i_0_0_l_i_instp hL, scale_thermal_i_m_m_t_i_inst hL, scale_thermal_i_m_m_t_i_same_mass_inst hL, scale_thermal_i_m_0_t_i_inst hL, scale_thermal_i_0_0_t_i_inst hL, scale_thermal_d_j_m_i_inst hL, scale_thermal_d_j_0_i hL, scale_thermal_d2_j_m_i_inst hL, scale_thermal_d2_j_0_i hL, scale_thermal_d_j_m_l_i_inst hL, scale_thermal_d_j_0_l_i hL, scale_thermal_d2_j_m_l_i_inst hL, scale_thermal_d2_j_0_l_i hL, scale_thermal_d_j_m_t_i_inst hL, scale_thermal_d_j_0_t_i hL, scale_thermal_d2_j_m_t_i_inst hL, scale_thermal_d2_j_0_t_i hL, scale_thermal_d_i_m_m_i_inst hL, scale_thermal_d_i_m_m_i_same_mass_inst hL, scale_thermal_d_i_m_m_i_same_mass_instp hL, scale_thermal_d_i_m_0_i_inst hL, scale_thermal_d_i_m_0_i_instp hL, scale_thermal_d_i_0_0_i_inst hL, scale_thermal_d_i_m_m_l_i_inst hL, scale_thermal_d_i_m_m_l_i_same_mass_inst hL, scale_thermal_d_i_m_m_l_i_same_mass_instp hL, scale_thermal_d_i_m_0_l_i_inst hL, scale_thermal_d_i_m_0_l_i_instp hL, scale_thermal_d_i_0_0_l_i_inst hL, scale_thermal_d_i_m_m_t_i_inst hL, scale_thermal_d_i_m_m_t_i_same_mass_inst hL, scale_thermal_d_i_m_0_t_i_inst hL, scale_thermal_d_i_0_0_t_i_inst hL, scale_thermal_zero_momentum_i_m_m_i_inst hL, scale_thermal_zero_momentum_i_m_m_i_same_mass_inst hL, scale_thermal_zero_momentum_i_m_0_i_inst hL, scale_thermal_zero_momentum_i_0_0_i_inst hL, scale_thermal_zero_momentum_i_m_m_l_i_inst hL, scale_thermal_zero_momentum_i_m_m_l_i_same_mass_inst hL, scale_thermal_zero_momentum_i_m_0_l_i_inst hL, scale_thermal_zero_momentum_i_0_0_l_i_inst hL, scale_thermal_zero_momentum_i_m_m_t_i_inst hL, scale_thermal_zero_momentum_i_m_m_t_i_same_mass_inst hL, scale_thermal_zero_momentum_i_m_0_t_i_inst hL, scale_thermal_zero_momentum_i_0_0_t_i_inst hL, scale_thermal_zero_momentum_d_i_m_m_i_inst hL, scale_thermal_zero_momentum_d_i_m_m_i_same_mass_inst hL, scale_thermal_zero_momentum_d_i_m_0_i_inst hL, scale_thermal_zero_momentum_d_i_0_0_i_inst hL, scale_thermal_zero_momentum_d_i_m_m_l_i_inst hL, scale_thermal_zero_momentum_d_i_m_m_l_i_same_mass_inst hL, scale_thermal_zero_momentum_d_i_m_0_l_i_inst hL, scale_thermal_zero_momentum_d_i_0_0_l_i_inst hL, scale_thermal_zero_momentum_d_i_m_m_t_i_inst hL, scale_thermal_zero_momentum_d_i_m_m_t_i_same_mass_inst hL, scale_thermal_zero_momentum_d_i_m_0_t_i_inst hL, scale_thermal_zero_momentum_d_i_0_0_t_i_inst hL, scale_thermal_zero_matsubara_i_m_m_i_inst hL, scale_thermal_zero_matsubara_i_m_m_i_same_mass_inst hL, scale_thermal_zero_matsubara_i_m_0_i_inst hL, scale_thermal_zero_matsubara_i_0_0_i hL, scale_thermal_zero_matsubara_i_m_m_l_i_inst hL, scale_thermal_zero_matsubara_i_m_m_l_i_same_mass_inst hL, scale_thermal_zero_matsubara_i_m_0_l_i_inst hL, scale_thermal_zero_matsubara_i_0_0_l_i hL, scale_thermal_zero_matsubara_i_m_m_t_i_inst hL, scale_thermal_zero_matsubara_i_m_m_t_i_same_mass_inst hL, scale_thermal_zero_matsubara_i_m_0_t_i_inst hL, scale_thermal_zero_matsubara_i_0_0_t_i hL, scale_thermal_zero_matsubara_d_i_m_m_i_inst hL, scale_thermal_zero_matsubara_d_i_m_m_i_same_mass_inst hL, scale_thermal_zero_matsubara_d_i_m_0_i_inst hL, scale_thermal_zero_matsubara_d_i_0_0_i hL, scale_thermal_zero_matsubara_d_i_m_m_l_i_inst hL, scale_thermal_zero_matsubara_d_i_m_m_l_i_same_mass_inst hL, scale_thermal_zero_matsubara_d_i_m_0_l_i_inst hL, scale_thermal_zero_matsubara_d_i_0_0_l_i hL, scale_thermal_zero_matsubara_d_i_m_m_t_i_inst hL, scale_thermal_zero_matsubara_d_i_m_m_t_i_same_mass_inst hL, scale_thermal_zero_matsubara_d_i_m_0_t_i_inst hL, scale_thermal_zero_matsubara_d_i_0_0_t_i hL]
  field_simp
  try ring

theorem scale_gluon_thermal_polarization_glue_t_thermal_part_landau_i {L : ℝ} (hL : 0 < L) (q : ℝ) (om : T) (p : ℝ) (m : ℝ) (beta : ℝ) :
    gluon.thermal.polarization_glue_t_thermal_part_landau_i (L * q) (ofR L * om) (L * p) (L * m) (beta / L) = (L : ℂ) ^ (1 : ℤ) * gluon.thermal.polarization_glue_t_thermal_part_landau_i q om p m beta := by
  have hL0 : (L : ℂ) ≠ 0 := Complex.ofReal_ne_zero.2 hL.ne'
  rw [toC_gluon_thermal_polarization_glue_t_thermal_part_landau_i (L * q) (ofR L * om) (L * p) (L * m) (beta / L), toC_gluon_thermal_polarization_glue_t_thermal_part_landau_i q om p m beta]
  simp only [gluon.thermal.polarization_glue_t_thermal_part_landau_i, scale_thermal_j_m_i_inst hL, scale_thermal_j_0_i hL, scale_thermal_j_m_l_i_inst hL, scale_thermal_j_0_l_i hL, scale_thermal_j_m_t_i_inst hL, scale_thermal_j_0_t_i hL, scale_thermal_i_m_m_i_inst hL, scale_thermal_i_m_m_i_same_mass_inst hL, scale_thermal_i_m_m_i_same_mass_instp hL, scale_thermal_i_m_0_i_inst hL, scale_thermal_i_m_0_i_instp hL, scale_thermal_i_0_0_i_inst hL, scale_thermal_i_m_m_l_i_inst hL, scale_thermal_i_m_m_l_i_same_mass_inst hL, scale_thermal_i_m_m_l_i_same_mass_instp hL, scale_thermal_i_m_0_l_i_inst hL, scale_thermal_i_m_0_l_i_instp hL, scale_thermal_i_0_0_l_i_inst hL, scale_thermal_i_0_0_l_i_instp hL, scale_thermal_i_m_m_t_i_inst hL, scale_thermal_i_m_m_t_i_same_mass_inst hL, scale_thermal_i_m_0_t_i_inst hL, scale_thermal_i_0_0_t_i_inst hL, scale_thermal_d_j_m_i_inst hL, scale_thermal_d_j_0_i hL, scale_thermal_d2_j_m_i_inst hL, scale_thermal_d2_j_0_i hL, scale_thermal_d_j_m_l_i_inst hL, scale_thermal_d_j_0_l_i hL, scale_thermal_d2_j_m_l_i_inst hL, scale_thermal_d2_j_0_l_i hL, scale_thermal_d_j_m_t_i_inst hL, scale_thermal_d_j_0_t_i hL, scale_thermal_d2_j_m_t_i_inst hL, scale_thermal_d2_j_0_t_i hL, scale_thermal_d_i_m_m_i_inst hL, scale_thermal_d_i_m_m_i_same_mass_inst hL, scale_thermal_d_i_m_m_i_same_mass_instp hL, scale_thermal_d_i_m_0_i_inst hL, scale_thermal_d_i_m_0_i_instp hL, scale_thermal_d_i_0_0_i_inst hL, scale_thermal_d_i_m_m_l_i_inst hL, scale_thermal_d_i_m_m_l_i_same_mass_inst hL, scale_thermal_d_i_m_m_l_i_same_mass_instp hL, scale_thermal_d_i_m_0_l_i_inst hL, scale_thermal_d_i_m_0_l_i_instp hL, scale_thermal_d_i_0_0_l_i_inst hL, scale_thermal_d_i_m_m_t_i_inst hL, scale_thermal_d_i_m_m_t_i_same_mass_inst hL, scale_thermal_d_i_m_0_t_i_inst hL, scale_thermal_d_i_0_0_t_i_inst hL, scale_thermal_zero_momentum_i_m_m_i_inst hL, scale_thermal_zero_momentum_i_m_m_i_same_mass_inst hL, scale_thermal_zero_momentum_i_m_0_i_inst hL, scale_thermal_zero_momentum_i_0_0_i_inst hL, scale_thermal_zero_momentum_i_m_m_l_i_inst hL, scale_thermal_zero_momentum_i_m_m_l_i_same_mass_inst hL, scale_thermal_zero_momentum_i_m_0_l_i_inst hL, scale_thermal_zero_momentum_i_0_0_l_i_inst hL, scale_thermal_zero_momentum_i_m_m_t_i_inst hL, scale_thermal_zero_momentum_i_m_m_t_i_same_mass_inst hL, scale_thermal_zero_momentum_i_m_0_t_i_inst hL, scale_thermal_zero_momentum_i_0_0_t_i_inst hL, scale_thermal_zero_momentum_d_i_m_m_i_inst hL, scale_thermal_zero_momentum_d_i_m_m_i_same_mass_inst hL, scale_thermal_zero_momentum_d_i_m_0_i_inst hL, scale_thermal_zero_momentum_d_i_0_0_i_inst hL, scale_thermal_zero_momentum_d_i_m_m_l_i_inst hL, scale_thermal_zero_momentum_d_i_m_m_l_i_same_mass_inst hL, scale_thermal_zero_momentum_d_i_m_0_l_i_inst hL, scale_thermal_zero_momentum_d_i_0_0_l_i_inst hL, scale_thermal_zero_momentum_d_i_m_m_t_i_inst hL, scale_thermal_zero_momentum_d_i_m_m_t_i_same_mass_inst hL, scale_thermal_zero_momentum_d_i_m_0_t_i_inst hL, scale_thermal_zero_momentum_d_i_0_0_t_i_inst hL, scale_thermal_zero_matsubara_i_m_m_i_inst hL, scale_thermal_zero_matsubara_i_m_m_i_same_mass_inst hL, scale_thermal_zero_matsubara_i_m_0_i_inst hL, scale_thermal_zero_matsubara_i_0_0_i hL, scale_thermal_zero_matsubara_i_m_m_l_i_inst hL, scale_thermal_zero_matsubara_i_m_m_l_i_same_mass_inst hL, scale_thermal_zero_matsubara_i_m_0_l_i_inst hL, scale_thermal_zero_matsubara_i_0_0_l_i hL, scale_thermal_zero_matsubara_i_m_m_t_i_inst hL, scale_thermal_zero_matsubara_i_m_m_t_i_same_mass_inst hL, scale_thermal_zero_matsubara_i_m_0_t_i_inst hL, scale_thermal_zero_matsubara_i_0_0_t_i hL, scale_thermal_zero_matsubara_d_i_m_m_i_inst hL, scale_thermal_zero_matsubara_d_i_m_m_i_same_mass_inst hL, scale_thermal_zero_matsubara_d_i_m_0_i_inst hL, scale_thermal_zero_matsubara_d_i_0_0_i hL, scale_thermal_zero_matsubara_d_i_m_m_l_i_inst hL, scale_thermal_zero_matsubara_d_i_m_m_l_i_same_mass_inst hL, scale_thermal_zero_matsubara_d_i_m_0_l_i_inst hL, scale_thermal_zero_matsubara_d_i_0_0_l_i hL, scale_thermal_zero_matsubara_d_i_m_m_t_i_inst hL, scale_thermal_zero_matsubara_d_i_m_m_t_i_same_mass_inst hL, scale_thermal_zero_matsubara_d_i_m_0_t_i_inst hL, scale_thermal_zero_matsubara_d_i_0_0_t_i hL, toC_complex, toC_real, ofR_complex, ofR_real, toC_ofR, toC_zero, toC_energy, toC_bose, map_mul, map_add, map_neg, map_sub, map_inv₀, map_div₀, map_zpow₀]
  try push_cast
  try simp only [scale_thermal_j_m_i_inst hL, scale_thermal_j_0_i hL, scale_thermal_j_m_l_i_inst hL, scale_thermal_j_0_l_i hL, scale_thermal_j_m_t_i_inst hL, scale_thermal_j_0_t_i hL, scale_thermal_i_m_m_i_inst hL, scale_thermal_i_m_m_i_same_mass_inst hL, scale_thermal_i_m_m_i_same_mass_instp hL, scale_thermal_i_m_0_i_inst hL, scale_thermal_i_m_0_i_instp hL, scale_thermal_i_0_0_i_inst hL, scale_thermal_i_m_m_l_i_inst hL, scale_thermal_i_m_m_l_i_same_mass_inst hL, scale_thermal_i_m_m_l_i_same_mass_instp hL, scale_thermal_i_m_0_l_i_inst hL, scale_thermal_i_m_0_l_i_instp hL, scale_thermal_i_0_0_l_i_inst hL, scale_thermal_i_0_0_l_i_instp hL, scale_thermal_i_m_m_t_i_inst hL, scale_thermal_i_m_m_t_i_same_mass_inst hL, scale_thermal_i_m_0_t_i_inst hL, scale_thermal_i_0_0_t_i_inst hL, scale_thermal_d_j_m_i_inst hL, scale_thermal_d_j_0_i hL, scale_thermal_d2_j_m_i_inst hL, scale_thermal_d2_j_0_i hL, scale_thermal_d_j_m_l_i_inst hL, scale_thermal_d_j_0_l_i hL, scale_thermal_d2_j_m_l_i_inst hL, scale_thermal_d2_j_0_l_i hL, scale_thermal_d_j_m_t_i_inst hL, scale_thermal_d_j_0_t_i hL, scale_thermal_d2_j_m_t_i_inst hL, scale_thermal_d2_j_0_t_i hL, scale_thermal_d_i_m_m_i_inst hL, scale_thermal_d_i_m_m_i_same_mass_inst hL, scale_thermal_d_i_m_m_i_same_mass_instp hL, scale_thermal_d_i_m_0_i_inst hL, scale_thermal_d_i_m_0_i_instp hL, scale_thermal_d_i_0_0_i_inst hL, scale_thermal_d_i_m_m_l_i_inst hL, scale_thermal_d_i_m_m_l_i_same_mass_inst hL, scale_thermal_d_i_m_m_l_i_same_mass_instp hL, scale_thermal_d_i_m_0_l_i_inst hL, scale_thermal_d_i_m_0_l_i_instp hL, scale_thermal_d_i_0_0_l_i_inst hL, scale_thermal_d_i_m_m_t_i_inst hL, scale_thermal_d_i_m_m_t_i_same_mass_inst hL, scale_thermal_d_i_m_0_t_i_inst hL, scale_thermal_d_i_0_0_t_i_inst hL, scale_thermal_zero_momentum_i_m_m_i_inst hL, scale_thermal_zero_momentum_i_m_m_i_same_mass_inst hL, scale_thermal_zero_momentum_i_m_0_i_inst hL, scale_thermal_zero_momentum_i_0_0_i_inst hL, scale_thermal_zero_momentum_i_m_m_l_i_inst hL, scale_thermal_zero_momentum_i_m_m_l_i_same_mass_inst hL, scale_thermal_zero_momentum_i_m_0_l_i_inst hL, scale_thermal_zero_momentum_i_0_0_l_i_inst hL, scale_thermal_zero_momentum_i_m_m_t_i_inst hL, scale_thermal_zero_momentum_i_m_m_t_i_same_mass_inst hL, scale_thermal_zero_momentum_i_m_0_t_i_inst hL, scale_thermal_zero_momentum_i_0_0_t_i_inst hL, scale_thermal_zero_momentum_d_i_m_m_i_inst hL, scale_thermal_zero_momentum_d_i_m_m_i_same_mass_inst hL, scale_thermal_zero_momentum_d_i_m_0_i_inst hL, scale_thermal_zero_momentum_d_i_0_0_i_inst hL, scale_thermal_zero_momentum_d_i_m_m_l_i_inst hL, scale_thermal_zero_momentum_d_i_m_m_l_i_same_mass_inst hL, scale_thermal_zero_momentum_d_i_m_0_l_i_inst hL, scale_thermal_zero_momentum_d_i_0_0_l_i_inst hL, scale_thermal_zero_momentum_d_i_m_m_t_i_inst hL, scale_thermal_zero_momentum_d_i_m_m_t_i_same_mass_inst hL, scale_thermal_zero_momentum_d_i_m_0_t_i_inst hL, scale_thermal_zero_momentum_d_i_0_0_t_i_inst hL, scale_thermal_zero_matsubara_i_m_m_i_inst hL, scale_thermal_zero_matsubara_i_m_m_i_same_mass_inst hL, scale_thermal_zero_matsubara_i_m_0_i_inst hL, scale_thermal_zero_matsubara_i_0_0_i hL, scale_thermal_zero_matsubara_i_m_m_l_i_inst hL, scale_thermal_zero_matsubara_i_m_m_l_i_same_mass_inst hL, scale_thermal_zero_matsubara_i_m_0_l_i_inst hL, scale_thermal_zero_matsubara_i_0_0_l_i hL, scale_thermal_zero_matsubara_i_m_m_t_i_inst hL, scale_thermal_zero_matsubara_i_m_m_t_i_same_mass_inst hL, scale_thermal_zero_matsubara_i_m_0_t_i_inst hL, scale_thermal_zero_matsubara_i_0_0_t_i hL, scale_thermal_zero_matsubara_d_i_m_m_i_inst hL, scale_thermal_zero_matsubara_d_i_m_m_i_same_mass_inst hL, scale_thermal_zero_matsubara_d_i_m_0_i_inst hL, scale_thermal_zero_matsubara_d_i_0_0_i hL, scale_thermal_zero_matsubara_d_i_m_m_l_i_inst hL, scale_thermal_zero_matsubara_d_i_m_m_l_i_same_mass_inst hL, scale_thermal_zero_matsubara_d_i_m_0_l_i_inst hL, scale_thermal_zero_matsubara_d_i_0_0_l_i hL, scale_thermal_zero_matsubara_d_i_m_m_t_i_inst hL, scale_thermal_zero_matsubara_d_i_m_m_t_i_same_mass_inst hL, scale_thermal_zero_matsubara_d_i_m_0_t_i_inst hL, scale_thermal_zero_matsubara_d_i_0_0_t_i hL]
  field_simp
  try ring

theorem scale_gluon_thermal_polarization_quark_l_thermal_part_landau_i {L : ℝ} (hL : 0 < L) (k : Consts ℝ) (q : ℝ) (om : T1) (p : T2) (mq : ℝ) (beta : ℝ) (mu : ℝ) :
    gluon.thermal.polarization_quark_l_thermal_part_landau_i k (L * q) (ofR L * om) (ofR L * p) (L * mq) (beta / L) (L * mu) = (L : ℂ) ^ (1 : ℤ) * gluon.thermal.polarization_quark_l_thermal_part_landau_i k q om p mq beta mu := by
  have hL0 : (L : ℂ) ≠ 0 := Complex.ofReal_ne_zero.2 hL.ne'
  rw [toC_gluon_thermal_polarization_quark_l_thermal_part_landau_i k (L * q) (ofR L * om) (ofR L * p) (L * mq) (beta / L) (L * mu), toC_gluon_thermal_polarization_quark_l_thermal_part_landau_i k q om p mq beta mu]
  simp only [gluon.thermal.polarization_quark_l_thermal_part_landau_i, r_0_eq, r_0_same_mass_eq, tlog_eq, tlog_same_mass_eq, tlog_zero_mass_eq, tlog_l_eq, tlog_l_same_mass_eq, tlog_l_zero_mass_eq, tlog_t_eq, tlog_t_same_mass_eq, tlog_t_zero_mass_eq, zm_r_0_eq, zm_r_0_same_mass_eq, z0_r_0_C, z0_r_0_eq, z0_tlog_eq, z0_tlog_t_eq, toC_complex, toC_real, ofR_complex, ofR_real, toC_ofR, toC_zero, toC_energy, toC_bose, map_mul, map_add, map_neg, map_sub, map_inv₀, map_div₀, map_zpow₀, energy_scale_real hL, fermi_double_scale hL, fermi_double_zero_temp_scale hL]
  try push_cast
  try simp only [z0_r_0_R, z0_tlog_same_mass_eq, z0_tlog_zero_mass_eq, z0_tlog_t_same_mass_eq, z0_tlog_t_zero_mass_eq, ofReal_energy, ofReal_bose, Complex.ofReal_mul, Complex.ofReal_neg]
  have hm : ∀ a b : ℂ, (L : ℂ) * a * (L * b) = L * L * (a * b) := fun a b => by ring
  have hs : ∀ a b : ℂ, (L : ℂ) * L * a - L * L * b = L * L * (a - b) := fun a b => by ring
  try simp only [energy_scale hL, bose_scale hL, hm, hs, ← mul_neg, neg_neg]
  try simp only [energy_scale hL, bose_scale hL, hm, hs, TL_scale hL0, TL_scale_zero hL0, R0_scale, R0_scale_zero, R0_scale_pz, R0_scale_pz_zero, PF_scale hL0, PF_scale_zero hL0, ZL_scale hL0, ZL_scale_zero hL0]
  field_simp
  try ring

theorem scale_gluon_thermal_polarization_quark_t_thermal_part_landau_i {L : ℝ} (hL : 0 < L) (k : Consts ℝ) (q : ℝ) (om : T) (p : ℝ) (mq : ℝ) (beta : ℝ) (mu : ℝ) :
    gluon.thermal.polarization_quark_t_thermal_part_landau_i k (L * q) (ofR L * om) (L * p) (L * mq) (beta / L) (L * mu) = (L : ℂ) ^ (1 : ℤ) * gluon.thermal.polarization_quark_t_thermal_part_landau_i k q om p mq beta mu := by
  have hL0 : (L : ℂ) ≠ 0 := Complex.ofReal_ne_zero.2 hL.ne'
  rw [toC_gluon_thermal_polarization_quark_t_thermal_part_landau_i k (L * q) (ofR L * om) (L * p) (L * mq) (beta / L) (L * mu), toC_gluon_thermal_polarization_quark_t_thermal_part_landau_i k q om p mq beta mu]
  simp only [gluon.thermal.polarization_quark_t_thermal_part_landau_i, r_0_eq, r_0_same_mass_eq, tlog_eq, tlog_same_mass_eq, tlog_zero_mass_eq, tlog_l_eq, tlog_l_same_mass_eq, tlog_l_zero_mass_eq, tlog_t_eq, tlog_t_same_mass_eq, tlog_t_zero_mass_eq, zm_r_0_eq, zm_r_0_same_mass_eq, z0_r_0_C, z0_r_0_eq, z0_tlog_eq, z0_tlog_t_eq, toC_complex, toC_real, ofR_complex, ofR_real, toC_ofR, toC_zero, toC_energy, toC_bose, map_mul, map_add, map_neg, map_sub, map_inv₀, map_div₀, map_zpow₀, energy_scale_real hL, fermi_double_scale hL, fermi_double_zero_temp_scale hL]
  try push_cast
  try simp only [z0_r_0_R, z0_tlog_same_mass_eq, z0_tlog_zero_mass_eq, z0_tlog_t_same_mass_eq, z0_tlog_t_zero_mass_eq, ofReal_energy, ofReal_bose, Complex.ofReal_mul, Complex.ofReal_neg]
  have hm : ∀ a b : ℂ, (L : ℂ) * a * (L * b) = L * L * (a * b) := fun a b => by ring
  have hs : ∀ a b : ℂ, (L : ℂ) * L * a - L * L * b = L * L * (a - b) := fun a b => by ring
  try simp only [energy_scale hL, bose_scale hL, hm, hs, ← mul_neg, neg_neg]
  try simp only [energy_scale hL, bose_scale hL, hm, hs, TL_scale hL0, TL_scale_zero hL0, R0_scale, R0_scale_zero, R0_scale_pz, R0_scale_pz_zero, PF_scale hL0, PF_scale_zero hL0, ZL_scale hL0, ZL_scale_zero hL0]
  field_simp
  try ring

theorem scale_gluon_thermal_polarization_quark_l_thermal_part_zero_temp_landau_i {L : ℝ} (hL : 0 < L) (k : Consts ℝ) (q : ℝ) (om : T1) (p : T2) (mq : ℝ) (mu : ℝ) :
    gluon.thermal.polarization_quark_l_thermal_part_zero_temp_landau_i k (L * q) (ofR L * om) (ofR L * p) (L * mq) (L * mu) = (L : ℂ) ^ (1 : ℤ) * gluon.thermal.polarization_quark_l_thermal_part_zero_temp_landau_i k q om p mq mu := by
  have hL0 : (L : ℂ) ≠ 0 := Complex.ofReal_ne_zero.2 hL.ne'
  rw [toC_gluon_thermal_polarization_quark_l_thermal_part_zero_temp_landau_i k (L * q) (ofR L * om) (ofR L * p) (L * mq) (L * mu), toC_gluon_thermal_polarization_quark_l_thermal_part_zero_temp_landau_i k q om p mq mu]
  simp only [gluon.thermal.polarization_quark_l_thermal_part_zero_temp_landau_i, r_0_eq, r_0_same_mass_eq, tlog_eq, tlog_same_mass_eq, tlog_zero_mass_eq, tlog_l_eq, tlog_l_same_mass_eq, tlog_l_zero_mass_eq, tlog_t_eq, tlog_t_same_mass_eq, tlog_t_zero_mass_eq, zm_r_0_eq, zm_r_0_same_mass_eq, z0_r_0_C, z0_r_0_eq, z0_tlog_eq, z0_tlog_t_eq, toC_complex, toC_real, ofR_complex, ofR_real, toC_ofR, toC_zero, toC_energy, toC_bose, map_mul, map_add, map_neg, map_sub, map_inv₀, map_div₀, map_zpow₀, energy_scale_real hL, fermi_double_scale hL, fermi_double_zero_temp_scale hL]
  try push_cast
  try simp only [z0_r_0_R, z0_tlog_same_mass_eq, z0_tlog_zero_mass_eq, z0_tlog_t_same_mass_eq, z0_tlog_t_zero_mass_eq, ofReal_energy, ofReal_bose, Complex.ofReal_mul, Complex.ofReal_neg]
  have hm : ∀ a b : ℂ, (L : ℂ) * a * (L * b) = L * L * (a * b) := fun a b => by ring
  have hs : ∀ a b : ℂ, (L : ℂ) * L * a - L * L * b = L * L * (a - b) := fun a b => by ring
  try simp only [energy_scale hL, bose_scale hL, hm, hs, ← mul_neg, neg_neg]
  try simp only [energy_scale hL, bose_scale hL, hm, hs, TL_scale hL0, TL_scale_zero hL0, R0_scale, R0_scale_zero, R0_scale_pz, R0_scale_pz_zero, PF_scale hL0, PF_scale_zero hL0, ZL_scale hL0, ZL_scale_zero hL0]
  field_simp
  try ring

theorem scale_gluon_thermal_polarization_quark_t_thermal_part_zero_temp_landau_i {L : ℝ} (hL : 0 < L) (k : Consts ℝ) (q : ℝ) (om : T) (p : ℝ) (mq : ℝ) (mu : ℝ) :
    gluon.thermal.polarization_quark_t_thermal_part_zero_temp_landau_i k (L * q) (ofR L * om) (L * p) (L * mq) (L * mu) = (L : ℂ) ^ (1 : ℤ) * gluon.thermal.polarization_quark_t_thermal_part_zero_temp_landau_i k q om p mq mu := by
  have hL0 : (L : ℂ) ≠ 0 := Complex.ofReal_ne_zero.2 hL.ne'
  rw [toC_gluon_thermal_polarization_quark_t_thermal_part_zero_temp_landau_i k (L * q) (ofR L * om) (L * p) (L * mq) (L * mu), toC_gluon_thermal_polarization_quark_t_thermal_part_zero_temp_landau_i k q om p mq mu]
  simp only [gluon.thermal.polarization_quark_t_thermal_part_zero_temp_landau_i, r_0_eq, r_0_same_mass_eq, tlog_eq, tlog_same_mass_eq, tlog_zero_mass_eq, tlog_l_eq, tlog_l_same_mass_eq, tlog_l_zero_mass_eq, tlog_t_eq, tlog_t_same_mass_eq, tlog_t_zero_mass_eq, zm_r_0_eq, zm_r_0_same_mass_eq, z0_r_0_C, z0_r_0_eq, z0_tlog_eq, z0_tlog_t_eq, toC_complex, toC_real, ofR_complex, ofR_real, toC_ofR, toC_zero, toC_energy, toC_bose, map_mul, map_add, map_neg, map_sub, map_inv₀, map_div₀, map_zpow₀, energy_scale_real hL, fermi_double_scale hL, fermi_double_zero_temp_scale hL]
  try push_cast
  try simp only [z0_r_0_R, z0_tlog_same_mass_eq, z0_tlog_zero_mass_eq, z0_tlog_t_same_mass_eq, z0_tlog_t_zero_mass_eq, ofReal_energy, ofReal_bose, Complex.ofReal_mul, Complex.ofReal_neg]
  have hm : ∀ a b : ℂ, (L : ℂ) * a * (L * b) = L * L * (a * b) := fun a b => by ring
  have hs : ∀ a b : ℂ, (L : ℂ) * L * a - L * L * b = L * L * (a - b) := fun a b => by ring
  try simp only [energy_scale hL, bose_scale hL, hm, hs, ← mul_neg, neg_neg]
  try simp only [energy_scale hL, bose_scale hL, hm, hs, TL_scale hL0, TL_scale_zero hL0, R0_scale, R0_scale_zero, R0_scale_pz, R0_scale_pz_zero, PF_scale hL0, PF_scale_zero hL0, ZL_scale hL0, ZL_scale_zero hL0]
  field_simp
  try ring

theorem scale_gluon_thermal_zero_matsubara_polarization_glue_l_thermal_part_landau_i {L : ℝ} (hL : 0 < L) (q : ℝ) (p : ℝ) (m : ℝ) (beta : ℝ) :
    gluon.thermal.zero_matsubara.polarization_glue_l_thermal_part_landau_i (L * q) (L * p) (L * m) (beta / L) = (L : ℂ) ^ (1 : ℤ) * gluon.thermal.zero_matsubara.polarization_glue_l_thermal_part_landau_i q p m beta := by
  have hL0 : (L : ℂ) ≠ 0 := Complex.ofReal_ne_zero.2 hL.ne'
  simp only [gluon.thermal.zero_matsubara.polarization_glue_l_thermal_part_landau_i, scale_thermal_j_m_i_inst hL, scale_thermal_j_0_i hL, scale_thermal_j_m_l_i_inst hL, scale_thermal_j_0_l_i hL, scale_thermal_j_m_t_i_inst hL, scale_thermal_j_0_t_i hL, scale_thermal_i_m_m_i_inst hL, scale_thermal_i_m_m_i_same_mass_inst hL, scale_thermal_i_m_m_i_same_mass_instp hL, scale_thermal_i_m_0_i_inst hL, scale_thermal_i_m_0_i_instp hL, scale_thermal_i_0_0_i_inst hL, scale_thermal_i_m_m_l_i_inst hL, scale_thermal_i_m_m_l_i_same_mass_inst hL, scale_thermal_i_m_m_l_i_same_mass_instp hL, scale_thermal_i_m_0_l_i_inst hL, scale_thermal_i_m_0_l_i_instp hL, scale_thermal_i_0_0_l_i_inst hL, scale_thermal_i_0_0_l_i_instp hL, scale_thermal_i_m_m_t_i_inst hL, scale_thermal_i_m_m_t_i_same_mass_inst hL, scale_thermal_i_m_0_t_i_inst hL, scale_thermal_i_0_0_t_i_inst hL, scale_thermal_d_j_m_i_inst hL, scale_thermal_d_j_0_i hL, scale_thermal_d2_j_m_i_inst hL, scale_thermal_d2_j_0_i hL, scale_thermal_d_j_m_l_i_inst hL, scale_thermal_d_j_0_l_i hL, scale_thermal_d2_j_m_l_i_inst hL, scale_thermal_d2_j_0_l_i hL, scale_thermal_d_j_m_t_i_inst hL, scale_thermal_d_j_0_t_i hL, scale_thermal_d2_j_m_t_i_inst hL, scale_thermal_d2_j_0_t_i hL, scale_thermal_d_i_m_m_i_inst hL, scale_thermal_d_i_m_m_i_same_mass_inst hL, scale_thermal_d_i_m_m_i_same_mass_instp hL, scale_thermal_d_i_m_0_i_inst hL, scale_thermal_d_i_m_0_i_instp hL, scale_thermal_d_i_0_0_i_inst hL, scale_thermal_d_i_m_m_l_i_inst hL, scale_thermal_d_i_m_m_l_i_same_mass_inst hL, scale_thermal_d_i_m_m_l_i_same_mass_instp hL, scale_thermal_d_i_m_0_l_i_inst hL, scale_thermal_d_i_m_0_l_i_instp hL, scale_thermal_d_i_0_0_l_i_inst hL, scale_thermal_d_i_m_m_t_i_inst hL, scale_thermal_d_i_m_m_t_i_same_mass_inst hL, scale_thermal_d_i_m_0_t_i_inst hL, scale_thermal_d_i_0_0_t_i_inst hL, scale_thermal_zero_momentum_i_m_m_i_inst hL, scale_thermal_zero_momentum_i_m_m_i_same_mass_inst hL, scale_thermal_zero_momentum_i_m_0_i_inst hL, scale_thermal_zero_momentum_i_0_0_i_inst hL, scale_thermal_zero_momentum_i_m_m_l_i_inst hL, scale_thermal_zero_momentum_i_m_m_l_i_same_mass_inst hL, scale_thermal_zero_momentum_i_m_0_l_i_inst hL, scale_thermal_zero_momentum_i_0_0_l_i_inst hL, scale_thermal_zero_momentum_i_m_m_t_i_inst hL, scale_thermal_zero_momentum_i_m_m_t_i_same_mass_inst hL, scale_thermal_zero_momentum_i_m_0_t_i_inst hL, scale_thermal_zero_momentum_i_0_0_t_i_inst hL, scale_thermal_zero_momentum_d_i_m_m_i_inst hL, scale_thermal_zero_momentum_d_i_m_m_i_same_mass_inst hL, scale_thermal_zero_momentum_d_i_m_0_i_inst hL, scale_thermal_zero_momentum_d_i_0_0_i_inst hL, scale_thermal_zero_momentum_d_i_m_m_l_i_inst hL, scale_thermal_zero_momentum_d_i_m_m_l_i_same_mass_inst hL, scale_thermal_zero_momentum_d_i_m_0_l_i_inst hL, scale_thermal_zero_momentum_d_i_0_0_l_i_inst hL, scale_thermal_zero_momentum_d_i_m_m_t_i_inst hL, scale_thermal_zero_momentum_d_i_m_m_t_i_same_mass_inst hL, scale_thermal_zero_momentum_d_i_m_0_t_i_inst hL, scale_thermal_zero_momentum_d_i_0_0_t_i_inst hL, scale_thermal_zero_matsubara_i_m_m_i_inst hL, scale_thermal_zero_matsubara_i_m_m_i_same_mass_inst hL, scale_thermal_zero_matsubara_i_m_0_i_inst hL, scale_thermal_zero_matsubara_i_0_0_i hL, scale_thermal_zero_matsubara_i_m_m_l_i_inst hL, scale_thermal_zero_matsubara_i_m_m_l_i_same_mass_inst hL, scale_thermal_zero_matsubara_i_m_0_l_i_inst hL, scale_thermal_zero_matsubara_i_0_0_l_i hL, scale_thermal_zero_matsubara_i_m_m_t_i_inst hL, scale_thermal_zero_matsubara_i_m_m_t_i_same_mass_inst hL, scale_thermal_zero_matsubara_i_m_0_t_i_inst hL, scale_thermal_zero_matsubara_i_0_0_t_i hL, scale_thermal_zero_matsubara_d_i_m_m_i_inst hL, scale_thermal_zero_matsubara_d_i_m_m_i_same_mass_inst hL, scale_thermal_zero_matsubara_d_i_m_0_i_inst hL, scale_thermal_zero_matsubara_d_i_0_0_i hL, scale_thermal_zero_matsubara_d_i_m_m_l_i_inst hL, scale_thermal_zero_matsubara_d_i_m_m_l_i_same_mass_inst hL, scale_thermal_zero_matsubara_d_i_m_0_l_i_inst hL, scale_thermal_zero_matsubara_d_i_0_0_l_i hL, scale_thermal_zero_matsubara_d_i_m_m_t_i_inst hL, scale_thermal_zero_matsubara_d_i_m_m_t_i_same_mass_inst hL, scale_thermal_zero_matsubara_d_i_m_0_t_i_inst hL, scale_thermal_zero_matsubara_d_i_0_0_t_i hL, toC_complex, toC_real, ofR_complex, ofR_real, toC_ofR, toC_zero, toC_energy, toC_bose, map_mul, map_add, map_neg, map_sub, map_inv₀, map_div₀, map_zpow₀]
  try push_cast
  try simp only [scale_thermal_j_m_i_inst hL, scale_thermal_j_0_i hL, scale_thermal_j_m_l_i_inst hL, scale_thermal_j_0_l_i hL, scale_thermal_j_m_t_i_inst hL, scale_thermal_j_0_t_i hL, scale_thermal_i_m_m_i_inst hL, scale_thermal_i_m_m_i_same_mass_inst hL, scale_thermal_i_m_m_i_same_mass_instp hL, scale_thermal_i_m_0_i_inst hL, scale_thermal_i_m_0_i_instp hL, scale_thermal_i_0_0_i_inst hL, scale_thermal_i_m_m_l_i_inst hL, scale_thermal_i_m_m_l_i_same_mass_inst hL, scale_thermal_i_m_m_l_i_same_mass_instp hL, scale_thermal_i_m_0_l_i_inst hL, scale_thermal_i_m_0_l_i_instp hL, scale_thermal_i_0_0_l_i_inst hL, scale_thermal_i_0_0_l_i_instp hL, scale_thermal_i_m_m_t_i_inst hL, scale_thermal_i_m_m_t_i_same_mass_inst hL, scale_thermal_i_m_0_t_i_inst hL, scale_thermal_i_0_0_t_i_inst hL, scale_thermal_d_j_m_i_inst hL, scale_thermal_d_j_0_i hL, scale_thermal_d2_j_m_i_inst hL, scale_thermal_d2_j_0_i hL, scale_thermal_d_j_m_l_i_inst hL, scale_thermal_d_j_0_l_i hL, scale_thermal_d2_j_m_l_i_inst hL, scale_thermal_d2_j_0_l_i hL, scale_thermal_d_j_m_t_i_inst hL, scale_thermal_d_j_0_t_i hL, scale_thermal_d2_j_m_t_i_inst hL, scale_thermal_d2_j_0_t_i hL, scale_thermal_d_i_m_m_i_inst hL, scale_thermal_d_i_m_m_i_same_mass_inst hL, scale_thermal_d_i_m_m_i_same_mass_instp hL, scale_thermal_d_i_m_0_i_inst hL, scale_thermal_d_i_m_0_i_instp hL, scale_thermal_d_i_0_0_i_inst hL, scale_thermal_d_i_m_m_l_i_inst hL, scale_thermal_d_i_m_m_l_i_same_mass_inst hL, scale_thermal_d_i_m_m_l_i_same_mass_instp hL, scale_thermal_d_i_m_0_l_i_inst hL, scale_thermal_d_i_m_0_l_i_instp hL, scale_thermal_d_i_0_0_l_i_inst hL, scale_thermal_d_i_m_m_t_i_inst hL, scale_thermal_d_i_m_m_t_i_same_mass_inst hL, scale_thermal_d_i_m_0_t_i_inst hL, scale_thermal_d_i_0_0_t_i_inst hL, scale_thermal_zero_momentum_i_m_m_i_inst hL, scale_thermal_zero_momentum_i_m_m_i_same_mass_inst hL, scale_thermal_zero_momentum_i_m_0_i_inst hL, scale_thermal_zero_momentum_i_0_0_i_inst hL, scale_thermal_zero_momentum_i_m_m_l_i_inst hL, scale_thermal_zero_momentum_i_m_m_l_i_same_mass_inst hL, scale_thermal_zero_momentum_i_m_0_l_i_inst hL, scale_thermal_zero_momentum_i_0_0_l_i_inst hL, scale_thermal_zero_momentum_i_m_m_t_i_inst hL, scale_thermal_zero_momentum_i_m_m_t_i_same_mass_inst hL, scale_thermal_zero_momentum_i_m_0_t_i_inst hL, scale_thermal_zero_momentum_i_0_0_t_i_inst hL, scale_thermal_zero_momentum_d_i_m_m_i_inst hL, scale_thermal_zero_momentum_d_i_m_m_i_same_mass_inst hL, scale_thermal_zero_momentum_d_i_m_0_i_inst hL, scale_thermal_zero_momentum_d_i_0_0_i_inst hL, scale_thermal_zero_momentum_d_i_m_m_l_i_inst hL, scale_thermal_zero_momentum_d_i_m_m_l_i_same_mass_inst hL, scale_thermal_zero_momentum_d_i_m_0_l_i_inst hL, scale_thermal_zero_momentum_d_i_0_0_l_i_inst hL, scale_thermal_zero_momentum_d_i_m_m_t_i_inst hL, scale_thermal_zero_momentum_d_i_m_m_t_i_same_mass_inst hL, scale_thermal_zero_momentum_d_i_m_0_t_i_inst hL, scale_thermal_zero_momentum_d_i_0_0_t_i_inst hL, scale_thermal_zero_matsubara_i_m_m_i_inst hL, scale_thermal_zero_matsubara_i_m_m_i_same_mass_inst hL, scale_thermal_zero_matsubara_i_m_0_i_inst hL, scale_thermal_zero_matsubara_i_0_0_i hL, scale_thermal_zero_matsubara_i_m_m_l_i_inst hL, scale_thermal_zero_matsubara_i_m_m_l_i_same_mass_inst hL, scale_thermal_zero_matsubara_i_m_0_l_i_inst hL, scale_thermal_zero_matsubara_i_0_0_l_i hL, scale_thermal_zero_matsubara_i_m_m_t_i_inst hL, scale_thermal_zero_matsubara_i_m_m_t_i_same_mass_inst hL, scale_thermal_zero_matsubara_i_m_0_t_i_inst hL, scale_thermal_zero_matsubara_i_0_0_t_i hL, scale_thermal_zero_matsubara_d_i_m_m_i_inst hL, scale_thermal_zero_matsubara_d_i_m_m_i_same_mass_inst hL, scale_thermal_zero_matsubara_d_i_m_0_i_inst hL, scale_thermal_zero_matsubara_d_i_0_0_i hL, scale_thermal_zero_matsubara_d_i_m_m_l_i_inst hL, scale_thermal_zero_matsubara_d_i_m_m_l_i_same_mass_inst hL, scale_thermal_zero_matsubara_d_i_m_0_l_i_inst hL, scale_thermal_zero_matsubara_d_i_0_0_l_i hL, scale_thermal_zero_matsubara_d_i_m_m_t_i_inst hL, scale_thermal_zero_matsubara_d_i_m_m_t_i_same_mass_inst hL, scale_thermal_zero_matsubara_d_i_m_0_t_i_inst hL, scale_thermal_zero_matsubara_d_i_0_0_t_i hL]
  field_simp
  try ring

theorem scale_gluon_thermal_zero_matsubara_polarization_glue_t_thermal_part_landau_i {L : ℝ} (hL : 0 < L) (q : ℝ) (p : ℝ) (m : ℝ) (beta : ℝ) :
    gluon.thermal.zero_matsubara.polarization_glue_t_thermal_part_landau_i (L * q) (L * p) (L * m) (beta / L) = (L : ℂ) ^ (1 : ℤ) * gluon.thermal.zero_matsubara.polarization_glue_t_thermal_part_landau_i q p m beta := by
  have hL0 : (L : ℂ) ≠ 0 := Complex.ofReal_ne_zero.2 hL.ne'
  simp only [gluon.thermal.zero_matsubara.polarization_glue_t_thermal_part_landau_i, scale_thermal_j_m_i_inst hL, scale_thermal_j_0_i hL, scale_thermal_j_m_l_i_inst hL, scale_thermal_j_0_l_i hL, scale_thermal_j_m_t_i_inst hL, scale_thermal_j_0_t_i hL, scale_thermal_i_m_m_i_inst hL, scale_thermal_i_m_m_i_same_mass_inst hL, scale_thermal_i_m_m_i_same_mass_instp hL, scale_thermal_i_m_0_i_inst hL, scale_thermal_i_m_0_i_instp hL, scale_thermal_i_0_0_i_inst hL, scale_thermal_i_m_m_l_i_inst hL, scale_thermal_i_m_m_l_i_same_mass_inst hL, scale_thermal_i_m_m_l_i_same_mass_instp hL, scale_thermal_i_m_0_l_i_inst hL, scale_thermal_i_m_0_l_i_instp hL, scale_thermal_i_0_0_l_i_inst hL, scale_thermal_i_0_0_l_i_instp hL, scale_thermal_i_m_m_t_i_inst hL, scale_thermal_i_m_m_t_i_same_mass_inst hL, scale_thermal_i_m_0_t_i_inst hL, scale_thermal_i_0_0_t_i_inst hL, scale_thermal_d_j_m_i_inst hL, scale_thermal_d_j_0_i hL, scale_thermal_d2_j_m_i_inst hL, scale_thermal_d2_j_0_i hL, scale_thermal_d_j_m_l_i_inst hL, scale_thermal_d_j_0_l_i hL, scale_thermal_d2_j_m_l_i_inst hL, scale_thermal_d2_j_0_l_i hL, scale_thermal_d_j_m_t_i_inst hL, scale_thermal_d_j_0_t_i hL, scale_thermal_d2_j_m_t_i_inst hL, scale_thermal_d2_j_0_t_i hL, scale_thermal_d_i_m_m_i_inst hL, scale_thermal_d_i_m_m_i_same_mass_inst hL, scale_thermal_d_i_m_m_i_same_mass_instp hL, scale_thermal_d_i_m_0_i_inst hL, scale_thermal_d_i_m_0_i_instp hL, scale_thermal_d_i_0_0_i_inst hL, scale_thermal_d_i_m_m_l_i_inst hL, scale_thermal_d_i_m_m_l_i_same_mass_inst hL, scale_thermal_d_i_m_m_l_i_same_mass_instp hL, scale_thermal_d_i_m_0_l_i_inst hL, scale_thermal_d_i_m_0_l_i_instp hL, scale_thermal_d_i_0_0_l_i_inst hL, scale_thermal_d_i_m_m_t_i_inst hL, scale_thermal_d_i_m_m_t_i_same_mass_inst hL, scale_thermal_d_i_m_0_t_i_inst hL, scale_thermal_d_i_0_0_t_i_inst hL, scale_thermal_zero_momentum_i_m_m_i_inst hL, scale_thermal_zero_momentum_i_m_m_i_same_mass_inst hL, scale_thermal_zero_momentum_i_m_0_i_inst hL, scale_thermal_zero_momentum_i_0_0_i_inst hL, scale_thermal_zero_momentum_i_m_m_l_i_inst hL, scale_thermal_zero_momentum_i_m_m_l_i_same_mass_inst hL, scale_thermal_zero_momentum_i_m_0_l_i_inst hL, scale_thermal_zero_momentum_i_0_0_l_i_inst hL, scale_thermal_zero_momentum_i_m_m_t_i_inst hL, scale_thermal_zero_momentum_i_m_m_t_i_same_mass_inst hL, scale_thermal_zero_momentum_i_m_0_t_i_inst hL, scale_thermal_zero_momentum_i_0_0_t_i_inst hL, scale_thermal_zero_momentum_d_i_m_m_i_inst hL, scale_thermal_zero_momentum_d_i_m_m_i_same_mass_inst hL, scale_thermal_zero_momentum_d_i_m_0_i_inst hL, scale_thermal_zero_momentum_d_i_0_0_i_inst hL, scale_thermal_zero_momentum_d_i_m_m_l_i_inst hL, scale_thermal_zero_momentum_d_i_m_m_l_i_same_mass_inst hL, scale_thermal_zero_momentum_d_i_m_0_l_i_inst hL, scale_thermal_zero_momentum_d_i_0_0_l_i_inst hL, scale_thermal_zero_momentum_d_i_m_m_t_i_inst hL, scale_thermal_zero_momentum_d_i_m_m_t_i_same_mass_inst hL, scale_thermal_zero_momentum_d_i_m_0_t_i_inst hL, scale_thermal_zero_momentum_d_i_0_0_t_i_inst hL, scale_thermal_zero_matsubara_i_m_m_i_inst hL, scale_thermal_zero_matsubara_i_m_m_i_same_mass_inst hL, scale_thermal_zero_matsubara_i_m_0_i_inst hL, scale_thermal_zero_matsubara_i_0_0_i hL, scale_thermal_zero_matsubara_i_m_m_l_i_inst hL, scale_thermal_zero_matsubara_i_m_m_l_i_same_mass_inst hL, scale_thermal_zero_matsubara_i_m_0_l_i_inst hL, scale_thermal_zero_matsubara_i_0_0_l_i hL, scale_thermal_zero_matsubara_i_m_m_t_i_inst hL, scale_thermal_zero_matsubara_i_m_m_t_i_same_mass_inst hL, scale_thermal_zero_matsubara_i_m_0_t_i_inst hL, scale_thermal_zero_matsubara_i_0_0_t_i hL, scale_thermal_zero_matsubara_d_i_m_m_i_inst hL, scale_thermal_zero_matsubara_d_i_m_m_i_same_mass_inst hL, scale_thermal_zero_matsubara_d_i_m_0_i_inst hL, scale_thermal_zero_matsubara_d_i_0_0_i hL, scale_thermal_zero_matsubara_d_i_m_m_l_i_inst hL, scale_thermal_zero_matsubara_d_i_m_m_l_i_same_mass_inst hL, scale_thermal_zero_matsubara_d_i_m_0_l_i_inst hL, scale_thermal_zero_matsubara_d_i_0_0_l_i hL, scale_thermal_zero_matsubara_d_i_m_m_t_i_inst hL, scale_thermal_zero_matsubara_d_i_m_m_t_i_same_mass_inst hL, scale_thermal_zero_matsubara_d_i_m_0_t_i_inst hL, scale_thermal_zero_matsubara_d_i_0_0_t_i hL, toC_complex, toC_real, ofR_complex, ofR_real, toC_ofR, toC_zero, toC_energy, toC_bose, map_mul, map_add, map_neg, map_sub, map_inv₀, map_div₀, map_zpow₀]
  try push_cast
  try simp only [scale_thermal_j_m_i_inst hL, scale_thermal_j_0_i hL, scale_thermal_j_m_l_i_inst hL, scale_thermal_j_0_l_i hL, scale_thermal_j_m_t_i_inst hL, scale_thermal_j_0_t_i hL, scale_thermal_i_m_m_i_inst hL, scale_thermal_i_m_m_i_same_mass_inst hL, scale_thermal_i_m_m_i_same_mass_instp hL, scale_thermal_i_m_0_i_inst hL, scale_thermal_i_m_0_i_instp hL, scale_thermal_i_0_0_i_inst hL, scale_thermal_i_m_m_l_i_inst hL, scale_thermal_i_m_m_l_i_same_mass_inst hL, scale_thermal_i_m_m_l_i_same_mass_instp hL, scale_thermal_i_m_0_l_i_inst hL, scale_thermal_i_m_0_l_i_instp hL, scale_thermal_i_0_0_l_i_inst hL, scale_thermal_i_0_0_l_i_instp hL, scale_thermal_i_m_m_t_i_inst hL, scale_thermal_i_m_m_t_i_same_mass_inst hL, scale_thermal_i_m_0_t_i_inst hL, scale_thermal_i_0_0_t_i_inst hL, scale_thermal_d_j_m_i_inst hL, scale_thermal_d_j_0_i hL, scale_thermal_d2_j_m_i_inst hL, scale_thermal_d2_j_0_i hL, scale_thermal_d_j_m_l_i_inst hL, scale_thermal_d_j_0_l_i hL, scale_thermal_d2_j_m_l_i_inst hL, scale_thermal_d2_j_0_l_i hL, scale_thermal_d_j_m_t_i_inst hL, scale_thermal_d_j_0_t_i hL, scale_thermal_d2_j_m_t_i_inst hL, scale_thermal_d2_j_0_t_i hL, scale_thermal_d_i_m_m_i_inst hL, scale_thermal_d_i_m_m_i_same_mass_inst hL, scale_thermal_d_i_m_m_i_same_mass_instp hL, scale_thermal_d_i_m_0_i_inst hL, scale_thermal_d_i_m_0_i_instp hL, scale_thermal_d_i_0_0_i_inst hL, scale_thermal_d_i_m_m_l_i_inst hL, scale_thermal_d_i_m_m_l_i_same_mass_inst hL, scale_thermal_d_i_m_m_l_i_same_mass_instp hL, scale_thermal_d_i_m_0_l_i_inst hL, scale_thermal_d_i_m_0_l_i_instp hL, scale_thermal_d_i_0_0_l_i_inst hL, scale_thermal_d_i_m_m_t_i_inst hL, scale_thermal_d_i_m_m_t_i_same_mass_inst hL, scale_thermal_d_i_m_0_t_i_inst hL, scale_thermal_d_i_0_0_t_i_inst hL, scale_thermal_zero_momentum_i_m_m_i_inst hL, scale_thermal_zero_momentum_i_m_m_i_same_mass_inst hL, scale_thermal_zero_momentum_i_m_0_i_inst hL, scale_thermal_zero_momentum_i_0_0_i_inst hL, scale_thermal_zero_momentum_i_m_m_l_i_inst hL, scale_thermal_zero_momentum_i_m_m_l_i_same_mass_inst hL, scale_thermal_zero_momentum_i_m_0_l_i_inst hL, scale_thermal_zero_momentum_i_0_0_l_i_inst hL, scale_thermal_zero_momentum_i_m_m_t_i_inst hL, scale_thermal_zero_momentum_i_m_m_t_i_same_mass_inst hL, scale_thermal_zero_momentum_i_m_0_t_i_inst hL, scale_thermal_zero_momentum_i_0_0_t_i_inst hL, scale_thermal_zero_momentum_d_i_m_m_i_inst hL, scale_thermal_zero_momentum_d_i_m_m_i_same_mass_inst hL, scale_thermal_zero_momentum_d_i_m_0_i_inst hL, scale_thermal_zero_momentum_d_i_0_0_i_inst hL, scale_thermal_zero_momentum_d_i_m_m_l_i_inst hL, scale_thermal_zero_momentum_d_i_m_m_l_i_same_mass_inst hL, scale_thermal_zero_momentum_d_i_m_0_l_i_inst hL, scale_thermal_zero_momentum_d_i_0_0_l_i_inst hL, scale_thermal_zero_momentum_d_i_m_m_t_i_inst hL, scale_thermal_zero_momentum_d_i_m_m_t_i_same_mass_inst hL, scale_thermal_zero_momentum_d_i_m_0_t_i_inst hL, scale_thermal_zero_momentum_d_i_0_0_t_i_inst hL, scale_thermal_zero_matsubara_i_m_m_i_inst hL, scale_thermal_zero_matsubara_i_m_m_i_same_mass_inst hL, scale_thermal_zero_matsubara_i_m_0_i_inst hL, scale_thermal_zero_matsubara_i_0_0_i hL, scale_thermal_zero_matsubara_i_m_m_l_i_inst hL, scale_thermal_zero_matsubara_i_m_m_l_i_same_mass_inst hL, scale_thermal_zero_matsubara_i_m_0_l_i_inst hL, scale_thermal_zero_matsubara_i_0_0_l_i hL, scale_thermal_zero_matsubara_i_m_m_t_i_inst hL, scale_thermal_zero_matsubara_i_m_m_t_i_same_mass_inst hL, scale_thermal_zero_matsubara_i_m_0_t_i_inst hL, scale_thermal_zero_matsubara_i_0_0_t_i hL, scale_thermal_zero_matsubara_d_i_m_m_i_inst hL, scale_thermal_zero_matsubara_d_i_m_m_i_same_mass_inst hL, scale_thermal_zero_matsubara_d_i_m_0_i_inst hL, scale_thermal_zero_matsubara_d_i_0_0_i hL, scale_thermal_zero_matsubara_d_i_m_m_l_i_inst hL, scale_thermal_zero_matsubara_d_i_m_m_l_i_same_mass_inst hL, scale_thermal_zero_matsubara_d_i_m_0_l_i_inst hL, scale_thermal_zero_matsubara_d_i_0_0_l_i hL, scale_thermal_zero_matsubara_d_i_m_m_t_i_inst hL, scale_thermal_zero_matsubara_d_i_m_m_t_i_same_mass_inst hL, scale_thermal_zero_matsubara_d_i_m_0_t_i_inst hL, scale_thermal_zero_matsubara_d_i_0_0_t_i hL]
  field_simp
  try ring

theorem scale_gluon_thermal_zero_matsubara_polarization_quark_l_thermal_part_landau_i {L : ℝ} (hL : 0 < L) (k : Consts ℝ) (q : ℝ) (p : ℝ) (mq : ℝ) (beta : ℝ) (mu : ℝ) :
    gluon.thermal.zero_matsubara.polarization_quark_l_thermal_part_landau_i k (L * q) (L * p) (L * mq) (beta / L) (L * mu) = L ^ (1 : ℤ) * gluon.thermal.zero_matsubara.polarization_quark_l_thermal_part_landau_i k q p mq beta mu := by
  have hL0 : (L : ℂ) ≠ 0 := Complex.ofReal_ne_zero.2 hL.ne'
  apply Complex.ofReal_injective
  simp only [gluon.thermal.zero_matsubara.polarization_quark_l_thermal_part_landau_i, r_0_eq, r_0_same_mass_eq, tlog_eq, tlog_same_mass_eq, tlog_zero_mass_eq, tlog_l_eq, tlog_l_same_mass_eq, tlog_l_zero_mass_eq, tlog_t_eq, tlog_t_same_mass_eq, tlog_t_zero_mass_eq, zm_r_0_eq, zm_r_0_same_mass_eq, z0_r_0_C, z0_r_0_eq, z0_tlog_eq, z0_tlog_t_eq, toC_complex, toC_real, ofR_complex, ofR_real, toC_ofR, toC_zero, toC_energy, toC_bose, map_mul, map_add, map_neg, map_sub, map_inv₀, map_div₀, map_zpow₀, energy_scale_real hL, fermi_double_scale hL, fermi_double_zero_temp_scale hL]
  try push_cast
  try simp only [z0_r_0_R, z0_tlog_same_mass_eq, z0_tlog_zero_mass_eq, z0_tlog_t_same_mass_eq, z0_tlog_t_zero_mass_eq, ofReal_energy, ofReal_bose, Complex.ofReal_mul, Complex.ofReal_neg]
  have hm : ∀ a b : ℂ, (L : ℂ) * a * (L * b) = L * L * (a * b) := fun a b => by ring
  have hs : ∀ a b : ℂ, (L : ℂ) * L * a - L * L * b = L * L * (a - b) := fun a b => by ring
  try simp only [energy_scale hL, bose_scale hL, hm, hs, ← mul_neg, neg_neg]
  try simp only [energy_scale hL, bose_scale hL, hm, hs, TL_scale hL0, TL_scale_zero hL0, R0_scale, R0_scale_zero, R0_scale_pz, R0_scale_pz_zero, PF_scale hL0, PF_scale_zero hL0, ZL_scale hL0, ZL_scale_zero hL0]
  field_simp
  try ring

theorem scale_gluon_thermal_zero_matsubara_polarization_quark_t_thermal_part_landau_i {L : ℝ} (hL : 0 < L) (k : Consts ℝ) (q : ℝ) (p : ℝ) (mq : ℝ) (beta : ℝ) (mu : ℝ) :
    gluon.thermal.zero_matsubara.polarization_quark_t_thermal_part_landau_i k (L * q) (L * p) (L * mq) (beta / L) (L * mu) = L ^ (1 : ℤ) * gluon.thermal.zero_matsubara.polarization_quark_t_thermal_part_landau_i k q p mq beta mu := by
  have hL0 : (L : ℂ) ≠ 0 := Complex.ofReal_ne_zero.2 hL.ne'
  apply Complex.ofReal_injective
  simp only [gluon.thermal.zero_matsubara.polarization_quark_t_thermal_part_landau_i, r_0_eq, r_0_same_mass_eq, tlog_eq, tlog_same_mass_eq, tlog_zero_mass_eq, tlog_l_eq, tlog_l_same_mass_eq, tlog_l_zero_mass_eq, tlog_t_eq, tlog_t_same_mass_eq, tlog_t_zero_mass_eq, zm_r_0_eq, zm_r_0_same_mass_eq, z0_r_0_C, z0_r_0_eq, z0_tlog_eq, z0_tlog_t_eq, toC_complex, toC_real, ofR_complex, ofR_real, toC_ofR, toC_zero, toC_energy, toC_bose, map_mul, map_add, map_neg, map_sub, map_inv₀, map_div₀, map_zpow₀, energy_scale_real hL, fermi_double_scale hL, fermi_double_zero_temp_scale hL]
  try push_cast
  try simp only [z0_r_0_R, z0_tlog_same_mass_eq, z0_tlog_zero_mass_eq, z0_tlog_t_same_mass_eq, z0_tlog_t_zero_mass_eq, ofReal_energy, ofReal_bose, Complex.ofReal_mul, Complex.ofReal_neg]
  have hm : ∀ a b : ℂ, (L : ℂ) * a * (L * b) = L * L * (a * b) := fun a b => by ring
  have hs : ∀ a b : ℂ, (L : ℂ) * L * a - L * L * b = L * L * (a - b) := fun a b => by ring
  try simp only [energy_scale hL, bose_scale hL, hm, hs, ← mul_neg, neg_neg]
  try simp only [energy_scale hL, bose_scale hL, hm, hs, TL_scale hL0, TL_scale_zero hL0, R0_scale, R0_scale_zero, R0_scale_pz, R0_scale_pz_zero, PF_scale hL0, PF_scale_zero hL0, ZL_scale hL0, ZL_scale_zero hL0]
  field_simp
  try ring

theorem scale_gluon_thermal_zero_matsubara_polarization_quark_l_thermal_part_zero_temp_landau_i {L : ℝ} (hL : 0 < L) (k : Consts ℝ) (q : ℝ) (p : ℝ) (mq : ℝ) (mu : ℝ) :
    gluon.thermal.zero_matsubara.polarization_quark_l_thermal_part_zero_temp_landau_i k (L * q) (L * p) (L * mq) (L * mu) = L ^ (1 : ℤ) * gluon.thermal.zero_matsubara.polarization_quark_l_thermal_part_zero_temp_landau_i k q p mq mu := by
  have hL0 : (L : ℂ) ≠ 0 := Complex.ofReal_ne_zero.2 hL.ne'
  apply Complex.ofReal_injective
  simp only [gluon.thermal.zero_matsubara.polarization_quark_l_thermal_part_zero_temp_landau_i, r_0_eq, r_0_same_mass_eq, tlog_eq, tlog_same_mass_eq, tlog_zero_mass_eq, tlog_l_eq, tlog_l_same_mass_eq, tlog_l_zero_mass_eq, tlog_t_eq, tlog_t_same_mass_eq, tlog_t_zero_mass_eq, zm_r_0_eq, zm_r_0_same_mass_eq, z0_r_0_C, z0_r_0_eq, z0_tlog_eq, z0_tlog_t_eq, toC_complex, toC_real, ofR_complex, ofR_real, toC_ofR, toC_zero, toC_energy, toC_bose, map_mul, map_add, map_neg, map_sub, map_inv₀, map_div₀, map_zpow₀, energy_scale_real hL, fermi_double_scale hL, fermi_double_zero_temp_scale hL]
  try push_cast
  try simp only [z0_r_0_R, z0_tlog_same_mass_eq, z0_tlog_zero_mass_eq, z0_tlog_t_same_mass_eq, z0_tlog_t_zero_mass_eq, ofReal_energy, ofReal_bose, Complex.ofReal_mul, Complex.ofReal_neg]
  have hm : ∀ a b : ℂ, (L : ℂ) * a * (L * b) = L * L * (a * b) := fun a b => by ring
  have hs : ∀ a b : ℂ, (L : ℂ) * L * a - L * L * b = L * L * (a - b) := fun a b => by ring
  try simp only [energy_scale hL, bose_scale hL, hm, hs, ← mul_neg, neg_neg]
  try simp only [energy_scale hL, bose_scale hL, hm, hs, TL_scale hL0, TL_scale_zero hL0, R0_scale, R0_scale_zero, R0_scale_pz, R0_scale_pz_zero, PF_scale hL0, PF_scale_zero hL0, ZL_scale hL0, ZL_scale_zero hL0]
  field_simp
  try ring

theorem scale_gluon_thermal_zero_matsubara_polarization_quark_t_thermal_part_zero_temp_landau_i {L : ℝ} (hL : 0 < L) (k : Consts ℝ) (q : ℝ) (p : ℝ) (mq : ℝ) (mu : ℝ) :
    gluon.thermal.zero_matsubara.polarization_quark_t_thermal_part_zero_temp_landau_i k (L * q) (L * p) (L * mq) (L * mu) = L ^ (1 : ℤ) * gluon.thermal.zero_matsubara.polarization_quark_t_thermal_part_zero_temp_landau_i k q p mq mu := by
  have hL0 : (L : ℂ) ≠ 0 := Complex.ofReal_ne_zero.2 hL.ne'
  apply Complex.ofReal_injective
  simp only [gluon.thermal.zero_matsubara.polarization_quark_t_thermal_part_zero_temp_landau_i, r_0_eq, r_0_same_mass_eq, tlog_eq, tlog_same_mass_eq, tlog_zero_mass_eq, tlog_l_eq, tlog_l_same_mass_eq, tlog_l_zero_mass_eq, tlog_t_eq, tlog_t_same_mass_eq, tlog_t_zero_mass_eq, zm_r_0_eq, zm_r_0_same_mass_eq, z0_r_0_C, z0_r_0_eq, z0_tlog_eq, z0_tlog_t_eq, toC_complex, toC_real, ofR_complex, ofR_real, toC_ofR, toC_zero, toC_energy, toC_bose, map_mul, map_add, map_neg, map_sub, map_inv₀, map_div₀, map_zpow₀, energy_scale_real hL, fermi_double_scale hL, fermi_double_zero_temp_scale hL]
  try push_cast
  try simp only [z0_r_0_R, z0_tlog_same_mass_eq, z0_tlog_zero_mass_eq, z0_tlog_t_same_mass_eq, z0_tlog_t_zero_mass_eq, ofReal_energy, ofReal_bose, Complex.ofReal_mul, Complex.ofReal_neg]
  have hm : ∀ a b : ℂ, (L : ℂ) * a * (L * b) = L * L * (a * b) := fun a b => by ring
  have hs : ∀ a b : ℂ, (L : ℂ) * L * a - L * L * b = L * L * (a - b) := fun a b => by ring
  try simp only [energy_scale hL, bose_scale hL, hm, hs, ← mul_neg, neg_neg]
  try simp only [energy_scale hL, bose_scale hL, hm, hs, TL_scale hL0, TL_scale_zero hL0, R0_scale, R0_scale_zero, R0_scale_pz, R0_scale_pz_zero, PF_scale hL0, PF_scale_zero hL0, ZL_scale hL0, ZL_scale_zero hL0]
  field_simp
  try ring

theorem scale_gluon_thermal_zero_momentum_polarization_glue_l_thermal_part_landau_i {L : ℝ} (hL : 0 < L) (q : ℝ) (om : T) (m : ℝ) (beta : ℝ) :
    gluon.thermal.zero_momentum.polarization_glue_l_thermal_part_landau_i (L * q) (ofR L * om) (L * m) (beta / L) = (L : ℂ) ^ (1 : ℤ) * gluon.thermal.zero_momentum.polarization_glue_l_thermal_part_landau_i q om m beta := by
  have hL0 : (L : ℂ) ≠ 0 := Complex.ofReal_ne_zero.2 hL.ne'
  rw [toC_gluon_thermal_zero_momentum_polarization_glue_l_thermal_part_landau_i (L * q) (ofR L * om) (L * m) (beta / L), toC_gluon_thermal_zero_momentum_polarization_glue_l_thermal_part_landau_i q om m beta]
  simp only [gluon.thermal.zero_momentum.polarization_glue_l_thermal_part_landau_i, scale_thermal_j_m_i_inst hL, scale_thermal_j_0_i hL, scale_thermal_j_m_l_i_inst hL, scale_thermal_j_0_l_i hL, scale_thermal_j_m_t_i_inst hL, scale_thermal_j_0_t_i hL, scale_thermal_i_m_m_i_inst hL, scale_thermal_i_m_m_i_same_mass_inst hL, scale_thermal_i_m_m_i_same_mass_instp hL, scale_thermal_i_m_0_i_inst hL, scale_thermal_i_m_0_i_instp hL, scale_thermal_i_0_0_i_inst hL, scale_thermal_i_m_m_l_i_inst hL, scale_thermal_i_m_m_l_i_same_mass_inst hL, scale_thermal_i_m_m_l_i_same_mass_instp hL, scale_thermal_i_m_0_l_i_inst hL, scale_thermal_i_m_0_l_i_instp hL, scale_thermal_i_0_0_l_i_inst hL, scale_thermal_i_0_0_l_i_instp hL, scale_thermal_i_m_m_t_i_inst hL, scale_thermal_i_m_m_t_i_same_mass_inst hL, scale_thermal_i_m_0_t_i_inst hL, scale_thermal_i_0_0_t_i_inst hL, scale_thermal_d_j_m_i_inst hL, scale_thermal_d_j_0_i hL, scale_thermal_d2_j_m_i_inst hL, scale_thermal_d2_j_0_i hL, scale_thermal_d_j_m_l_i_inst hL, scale_thermal_d_j_0_l_i hL, scale_thermal_d2_j_m_l_i_inst hL, scale_thermal_d2_j_0_l_i hL, scale_thermal_d_j_m_t_i_inst hL, scale_thermal_d_j_0_t_i hL, scale_thermal_d2_j_m_t_i_inst hL, scale_thermal_d2_j_0_t_i hL, scale_thermal_d_i_m_m_i_inst hL, scale_thermal_d_i_m_m_i_same_mass_inst hL, scale_thermal_d_i_m_m_i_same_mass_instp hL, scale_thermal_d_i_m_0_i_inst hL, scale_thermal_d_i_m_0_i_instp hL, scale_thermal_d_i_0_0_i_inst hL, scale_thermal_d_i_m_m_l_i_inst hL, scale_thermal_d_i_m_m_l_i_same_mass_inst hL, scale_thermal_d_i_m_m_l_i_same_mass_instp hL, scale_thermal_d_i_m_0_l_i_inst hL, scale_thermal_d_i_m_0_l_i_instp hL, scale_thermal_d_i_0_0_l_i_inst hL, scale_thermal_d_i_m_m_t_i_inst hL, scale_thermal_d_i_m_m_t_i_same_mass_inst hL, scale_thermal_d_i_m_0_t_i_inst hL, scale_thermal_d_i_0_0_t_i_inst hL, scale_thermal_zero_momentum_i_m_m_i_inst hL, scale_thermal_zero_momentum_i_m_m_i_same_mass_inst hL, scale_thermal_zero_momentum_i_m_0_i_inst hL, scale_thermal_zero_momentum_i_0_0_i_inst hL, scale_thermal_zero_momentum_i_m_m_l_i_inst hL, scale_thermal_zero_momentum_i_m_m_l_i_same_mass_inst hL, scale_thermal_zero_momentum_i_m_0_l_i_inst hL, scale_thermal_zero_momentum_i_0_0_l_i_inst hL, scale_thermal_zero_momentum_i_m_m_t_i_inst hL, scale_thermal_zero_momentum_i_m_m_t_i_same_mass_inst hL, scale_thermal_zero_momentum_i_m_0_t_i_inst hL, scale_thermal_zero_momentum_i_0_0_t_i_inst hL, scale_thermal_zero_momentum_d_i_m_m_i_inst hL, scale_thermal_zero_momentum_d_i_m_m_i_same_mass_inst hL, scale_thermal_zero_momentum_d_i_m_0_i_inst hL, scale_thermal_zero_momentum_d_i_0_0_i_inst hL, scale_thermal_zero_momentum_d_i_m_m_l_i_inst hL, scale_thermal_zero_momentum_d_i_m_m_l_i_same_mass_inst hL, scale_thermal_zero_momentum_d_i_m_0_l_i_inst hL, scale_thermal_zero_momentum_d_i_0_0_l_i_inst hL, scale_thermal_zero_momentum_d_i_m_m_t_i_inst hL, scale_thermal_zero_momentum_d_i_m_m_t_i_same_mass_inst hL, scale_thermal_zero_momentum_d_i_m_0_t_i_inst hL, scale_thermal_zero_momentum_d_i_0_0_t_i_inst hL, scale_thermal_zero_matsubara_i_m_m_i_inst hL, scale_thermal_zero_matsubara_i_m_m_i_same_mass_inst hL, scale_thermal_zero_matsubara_i_m_0_i_inst hL, scale_thermal_zero_matsubara_i_0_0_i hL, scale_thermal_zero_matsubara_i_m_m_l_i_inst hL, scale_thermal_zero_matsubara_i_m_m_l_i_same_mass_inst hL, scale_thermal_zero_matsubara_i_m_0_l_i_inst hL, scale_thermal_zero_matsubara_i_0_0_l_i hL, scale_thermal_zero_matsubara_i_m_m_t_i_inst hL, scale_thermal_zero_matsubara_i_m_m_t_i_same_mass_inst hL, scale_thermal_zero_matsubara_i_m_0_t_i_inst hL, scale_thermal_zero_matsubara_i_0_0_t_i hL, scale_thermal_zero_matsubara_d_i_m_m_i_inst hL, scale_thermal_zero_matsubara_d_i_m_m_i_same_mass_inst hL, scale_thermal_zero_matsubara_d_i_m_0_i_inst hL, scale_thermal_zero_matsubara_d_i_0_0_i hL, scale_thermal_zero_matsubara_d_i_m_m_l_i_inst hL, scale_thermal_zero_matsubara_d_i_m_m_l_i_same_mass_inst hL, scale_thermal_zero_matsubara_d_i_m_0_l_i_inst hL, scale_thermal_zero_matsubara_d_i_0_0_l_i hL, scale_thermal_zero_matsubara_d_i_m_m_t_i_inst hL, scale_thermal_zero_matsubara_d_i_m_m_t_i_same_mass_inst hL, scale_thermal_zero_matsubara_d_i_m_0_t_i_inst hL, scale_thermal_zero_matsubara_d_i_0_0_t_i hL, toC_complex, toC_real, ofR_complex, ofR_real, toC_ofR, toC_zero, toC_energy, toC_bose, map_mul, map_add, map_neg, map_sub, map_inv₀, map_div₀, map_zpow₀]
  try push_cast
  try simp only [scale_thermal_j_m_i_inst hL, scale_thermal_j_0_i hL, scale_thermal_j_m_l_i_inst hL, scale_thermal_j_0_l_i hL, scale_thermal_j_m_t_i_inst hL, scale_thermal_j_0_t_i hL, scale_thermal_i_m_m_i_inst hL, scale_thermal_i_m_m_i_same_mass_inst hL, scale_thermal_i_m_m_i_same_mass_instp hL, scale_thermal_i_m_0_i_inst hL, scale_thermal_i_m_0_i_instp hL, scale_thermal_i_0_0_i_inst hL, scale_thermal_i_m_m_l_i_inst hL, scale_thermal_i_m_m_l_i_same_mass_inst hL, scale_thermal_i_m_m_l_i_same_mass_instp hL, scale_thermal_i_m_0_l_i_inst hL, scale_thermal_i_m_0_l_i_instp hL, scale_thermal_i_0_0_l_i_inst hL, scale_thermal_i_0_0_l_i_instp hL, scale_thermal_i_m_m_t_i_inst hL, scale_thermal_i_m_m_t_i_same_mass_inst hL, scale_thermal_i_m_0_t_i_inst hL, scale_thermal_i_0_0_t_i_inst hL, scale_thermal_d_j_m_i_inst hL, scale_thermal_d_j_0_i hL, scale_thermal_d2_j_m_i_inst hL, scale_thermal_d2_j_0_i hL, scale_thermal_d_j_m_l_i_inst hL, scale_thermal_d_j_0_l_i hL, scale_thermal_d2_j_m_l_i_inst hL, scale_thermal_d2_j_0_l_i hL, scale_thermal_d_j_m_t_i_inst hL, scale_thermal_d_j_0_t_i hL, scale_thermal_d2_j_m_t_i_inst hL, scale_thermal_d2_j_0_t_i hL, scale_thermal_d_i_m_m_i_inst hL, scale_thermal_d_i_m_m_i_same_mass_inst hL, scale_thermal_d_i_m_m_i_same_mass_instp hL, scale_thermal_d_i_m_0_i_inst hL, scale_thermal_d_i_m_0_i_instp hL, scale_thermal_d_i_0_0_i_inst hL, scale_thermal_d_i_m_m_l_i_inst hL, scale_thermal_d_i_m_m_l_i_same_mass_inst hL, scale_thermal_d_i_m_m_l_i_same_mass_instp hL, scale_thermal_d_i_m_0_l_i_inst hL, scale_thermal_d_i_m_0_l_i_instp hL, scale_thermal_d_i_0_0_l_i_inst hL, scale_thermal_d_i_m_m_t_i_inst hL, scale_thermal_d_i_m_m_t_i_same_mass_inst hL, scale_thermal_d_i_m_0_t_i_inst hL, scale_thermal_d_i_0_0_t_i_inst hL, scale_thermal_zero_momentum_i_m_m_i_inst hL, scale_thermal_zero_momentum_i_m_m_i_same_mass_inst hL, scale_thermal_zero_momentum_i_m_0_i_inst hL, scale_thermal_zero_momentum_i_0_0_i_inst hL, scale_thermal_zero_momentum_i_m_m_l_i_inst hL, scale_thermal_zero_momentum_i_m_m_l_i_same_mass_inst hL, scale_thermal_zero_momentum_i_m_0_l_i_inst hL, scale_thermal_zero_momentum_i_0_0_l_i_inst hL, scale_thermal_zero_momentum_i_m_m_t_i_inst hL, scale_thermal_zero_momentum_i_m_m_t_i_same_mass_inst hL, scale_thermal_zero_momentum_i_m_0_t_i_inst hL, scale_thermal_zero_momentum_i_0_0_t_i_inst hL, scale_thermal_zero_momentum_d_i_m_m_i_inst hL, scale_thermal_zero_momentum_d_i_m_m_i_same_mass_inst hL, scale_thermal_zero_momentum_d_i_m_0_i_inst hL, scale_thermal_zero_momentum_d_i_0_0_i_inst hL, scale_thermal_zero_momentum_d_i_m_m_l_i_inst hL, scale_thermal_zero_momentum_d_i_m_m_l_i_same_mass_inst hL, scale_thermal_zero_momentum_d_i_m_0_l_i_inst hL, scale_thermal_zero_momentum_d_i_0_0_l_i_inst hL, scale_thermal_zero_momentum_d_i_m_m_t_i_inst hL, scale_thermal_zero_momentum_d_i_m_m_t_i_same_mass_inst hL, scale_thermal_zero_momentum_d_i_m_0_t_i_inst hL, scale_thermal_zero_momentum_d_i_0_0_t_i_inst hL, scale_thermal_zero_matsubara_i_m_m_i_inst hL, scale_thermal_zero_matsubara_i_m_m_i_same_mass_inst hL, scale_thermal_zero_matsubara_i_m_0_i_inst hL, scale_thermal_zero_matsubara_i_0_0_i hL, scale_thermal_zero_matsubara_i_m_m_l_i_inst hL, scale_thermal_zero_matsubara_i_m_m_l_i_same_mass_inst hL, scale_thermal_zero_matsubara_i_m_0_l_i_inst hL, scale_thermal_zero_matsubara_i_0_0_l_i hL, scale_thermal_zero_matsubara_i_m_m_t_i_inst hL, scale_thermal_zero_matsubara_i_m_m_t_i_same_mass_inst hL, scale_thermal_zero_matsubara_i_m_0_t_i_inst hL, scale_thermal_zero_matsubara_i_0_0_t_i hL, scale_thermal_zero_matsubara_d_i_m_m_i_inst hL, scale_thermal_zero_matsubara_d_i_m_m_i_same_mass_inst hL, scale_thermal_zero_matsubara_d_i_m_0_i_inst hL, scale_thermal_zero_matsubara_d_i_0_0_i hL, scale_thermal_zero_matsubara_d_i_m_m_l_i_inst hL, scale_thermal_zero_matsubara_d_i_m_m_l_i_same_mass_inst hL, scale_thermal_zero_matsubara_d_i_m_0_l_i_inst hL, scale_thermal_zero_matsubara_d_i_0_0_l_i hL, scale_thermal_zero_matsubara_d_i_m_m_t_i_inst hL, scale_thermal_zero_matsubara_d_i_m_m_t_i_same_mass_inst hL, scale_thermal_zero_matsubara_d_i_m_0_t_i_inst hL, scale_thermal_zero_matsubara_d_i_0_0_t_i hL]
  field_simp
  try ring

theorem scale_gluon_thermal_zero_momentum_polarization_glue_t_thermal_part_landau_i {L : ℝ} (hL : 0 < L) (q : ℝ) (om : T) (m : ℝ) (beta : ℝ) :
    gluon.thermal.zero_momentum.polarization_glue_t_thermal_part_landau_i (L * q) (ofR L * om) (L * m) (beta / L) = (L : ℂ) ^ (1 : ℤ) * gluon.thermal.zero_momentum.polarization_glue_t_thermal_part_landau_i q om m beta := by
  have hL0 : (L : ℂ) ≠ 0 := Complex.ofReal_ne_zero.2 hL.ne'
  rw [toC_gluon_thermal_zero_momentum_polarization_glue_t_thermal_part_landau_i (L * q) (ofR L * om) (L * m) (beta / L), toC_gluon_thermal_zero_momentum_polarization_glue_t_thermal_part_landau_i q om m beta]
  simp only [gluon.thermal.zero_momentum.polarization_glue_t_thermal_part_landau_i, gluon.thermal.zero_momentum.polarization_glue_l_thermal_part_landau_i, scale_thermal_j_m_i_inst hL, scale_thermal_j_0_i hL, scale_thermal_j_m_l_i_inst hL, scale_thermal_j_0_l_i hL, scale_thermal_j_m_t_i_inst hL, scale_thermal_j_0_t_i hL, scale_thermal_i_m_m_i_inst hL, scale_thermal_i_m_m_i_same_mass_inst hL, scale_thermal_i_m_m_i_same_mass_instp hL, scale_thermal_i_m_0_i_inst hL, scale_thermal_i_m_0_i_instp hL, scale_thermal_i_0_0_i_inst hL, scale_thermal_i_m_m_l_i_inst hL, scale_thermal_i_m_m_l_i_same_mass_inst hL, scale_thermal_i_m_m_l_i_same_mass_instp hL, scale_thermal_i_m_0_l_i_inst hL, scale_thermal_i_m_0_l_i_instp hL, scale_thermal_i_0_0_l_i_inst hL, scale_thermal_i_0_0_l_i_instp hL, scale_thermal_i_m_m_t_i_inst hL, scale_thermal_i_m_m_t_i_same_mass_inst hL, scale_thermal_i_m_0_t_i_inst hL, scale_thermal_i_0_0_t_i_inst hL, scale_thermal_d_j_m_i_inst hL, scale_thermal_d_j_0_i hL, scale_thermal_d2_j_m_i_inst hL, scale_thermal_d2_j_0_i hL, scale_thermal_d_j_m_l_i_inst hL, scale_thermal_d_j_0_l_i hL, scale_thermal_d2_j_m_l_i_inst hL, scale_thermal_d2_j_0_l_i hL, scale_thermal_d_j_m_t_i_inst hL, scale_thermal_d_j_0_t_i hL, scale_thermal_d2_j_m_t_i_inst hL, scale_thermal_d2_j_0_t_i hL, scale_thermal_d_i_m_m_i_inst hL, scale_thermal_d_i_m_m_i_same_mass_inst hL, scale_thermal_d_i_m_m_i_same_mass_instp hL, scale_thermal_d_i_m_0_i_inst hL, scale_thermal_d_i_m_0_i_instp hL, scale_thermal_d_i_0_0_i_inst hL, scale_thermal_d_i_m_m_l_i_inst hL, scale_thermal_d_i_m_m_l_i_same_mass_inst hL, scale_thermal_d_i_m_m_l_i_same_mass_instp hL, scale_thermal_d_i_m_0_l_i_inst hL, scale_thermal_d_i_m_0_l_i_instp hL, scale_thermal_d_i_0_0_l_i_inst hL, scale_thermal_d_i_m_m_t_i_inst hL, scale_thermal_d_i_m_m_t_i_same_mass_inst hL, scale_thermal_d_i_m_0_t_i_inst hL, scale_thermal_d_i_0_0_t_i_inst hL, scale_thermal_zero_momentum_i_m_m_i_inst hL, scale_thermal_zero_momentum_i_m_m_i_same_mass_inst hL, scale_thermal_zero_momentum_i_m_0_i_inst hL, scale_thermal_zero_momentum_i_0_0_i_inst hL, scale_thermal_zero_momentum_i_m_m_l_i_inst hL, scale_thermal_zero_momentum_i_m_m_l_i_same_mass_inst hL, scale_thermal_zero_momentum_i_m_0_l_i_inst hL, scale_thermal_zero_momentum_i_0_0_l_i_inst hL, scale_thermal_zero_momentum_i_m_m_t_i_inst hL, scale_thermal_zero_momentum_i_m_m_t_i_same_mass_inst hL, scale_thermal_zero_momentum_i_m_0_t_i_inst hL, scale_thermal_zero_momentum_i_0_0_t_i_inst hL, scale_thermal_zero_momentum_d_i_m_m_i_inst hL, scale_thermal_zero_momentum_d_i_m_m_i_same_mass_inst hL, scale_thermal_zero_momentum_d_i_m_0_i_inst hL, scale_thermal_zero_momentum_d_i_0_0_i_inst hL, scale_thermal_zero_momentum_d_i_m_m_l_i_inst hL, scale_thermal_zero_momentum_d_i_m_m_l_i_same_mass_inst hL, scale_thermal_zero_momentum_d_i_m_0_l_i_inst hL, scale_thermal_zero_momentum_d_i_0_0_l_i_inst hL, scale_thermal_zero_momentum_d_i_m_m_t_i_inst hL, scale_thermal_zero_momentum_d_i_m_m_t_i_same_mass_inst hL, scale_thermal_zero_momentum_d_i_m_0_t_i_inst hL, scale_thermal_zero_momentum_d_i_0_0_t_i_inst hL, scale_thermal_zero_matsubara_i_m_m_i_inst hL, scale_thermal_zero_matsubara_i_m_m_i_same_mass_inst hL, scale_thermal_zero_matsubara_i_m_0_i_inst hL, scale_thermal_zero_matsubara_i_0_0_i hL, scale_thermal_zero_matsubara_i_m_m_l_i_inst hL, scale_thermal_zero_matsubara_i_m_m_l_i_same_mass_inst hL, scale_thermal_zero_matsubara_i_m_0_l_i_inst hL, scale_thermal_zero_matsubara_i_0_0_l_i hL, scale_thermal_zero_matsubara_i_m_m_t_i_inst hL, scale_thermal_zero_matsubara_i_m_m_t_i_same_mass_inst hL, scale_thermal_zero_matsubara_i_m_0_t_i_inst hL, scale_thermal_zero_matsubara_i_0_0_t_i hL, scale_thermal_zero_matsubara_d_i_m_m_i_inst hL, scale_thermal_zero_matsubara_d_i_m_m_i_same_mass_inst hL, scale_thermal_zero_matsubara_d_i_m_0_i_inst hL, scale_thermal_zero_matsubara_d_i_0_0_i hL, scale_thermal_zero_matsubara_d_i_m_m_l_i_inst hL, scale_thermal_zero_matsubara_d_i_m_m_l_i_same_mass_inst hL, scale_thermal_zero_matsubara_d_i_m_0_l_i_inst hL, scale_thermal_zero_matsubara_d_i_0_0_l_i hL, scale_thermal_zero_matsubara_d_i_m_m_t_i_inst hL, scale_thermal_zero_matsubara_d_i_m_m_t_i_same_mass_inst hL, scale_thermal_zero_matsubara_d_i_m_0_t_i_inst hL, scale_thermal_zero_matsubara_d_i_0_0_t_i hL, toC_complex, toC_real, ofR_complex, ofR_real, toC_ofR, toC_zero, toC_energy, toC_bose, map_mul, map_add, map_neg, map_sub, map_inv₀, map_div₀, map_zpow₀]
  try push_cast
  try simp only [scale_thermal_j_m_i_inst hL, scale_thermal_j_0_i hL, scale_thermal_j_m_l_i_inst hL, scale_thermal_j_0_l_i hL, scale_thermal_j_m_t_i_inst hL, scale_thermal_j_0_t_i hL, scale_thermal_i_m_m_i_inst hL, scale_thermal_i_m_m_i_same_mass_inst hL, scale_thermal_i_m_m_i_same_mass_instp hL, scale_thermal_i_m_0_i_inst hL, scale_thermal_i_m_0_i_instp hL, scale_thermal_i_0_0_i_inst hL, scale_thermal_i_m_m_l_i_inst hL, scale_thermal_i_m_m_l_i_same_mass_inst hL, scale_thermal_i_m_m_l_i_same_mass_instp hL, scale_thermal_i_m_0_l_i_inst hL, scale_thermal_i_m_0_l_i_instp hL, scale_thermal_i_0_0_l_i_inst hL, scale_thermal_i_0_0_l_i_instp hL, scale_thermal_i_m_m_t_i_inst hL, scale_thermal_i_m_m_t_i_same_mass_inst hL, scale_thermal_i_m_0_t_i_inst hL, scale_thermal_i_0_0_t_i_inst hL, scale_thermal_d_j_m_i_inst hL, scale_thermal_d_j_0_i hL, scale_thermal_d2_j_m_i_inst hL, scale_thermal_d2_j_0_i hL, scale_thermal_d_j_m_l_i_inst hL, scale_thermal_d_j_0_l_i hL, scale_thermal_d2_j_m_l_i_inst hL, scale_thermal_d2_j_0_l_i hL, scale_thermal_d_j_m_t_i_inst hL, scale_thermal_d_j_0_t_i hL, scale_thermal_d2_j_m_t_i_inst hL, scale_thermal_d2_j_0_t_i hL, scale_thermal_d_i_m_m_i_inst hL, scale_thermal_d_i_m_m_i_same_mass_inst hL, scale_thermal_d_i_m_m_i_same_mass_instp hL, scale_thermal_d_i_m_0_i_inst hL, scale_thermal_d_i_m_0_i_instp hL, scale_thermal_d_i_0_0_i_inst hL, scale_thermal_d_i_m_m_l_i_inst hL, scale_thermal_d_i_m_m_l_i_same_mass_inst hL, scale_thermal_d_i_m_m_l_i_same_mass_instp hL, scale_thermal_d_i_m_0_l_i_inst hL, scale_thermal_d_i_m_0_l_i_instp hL, scale_thermal_d_i_0_0_l_i_inst hL, scale_thermal_d_i_m_m_t_i_inst hL, scale_thermal_d_i_m_m_t_i_same_mass_inst hL, scale_thermal_d_i_m_0_t_i_inst hL, scale_thermal_d_i_0_0_t_i_inst hL, scale_thermal_zero_momentum_i_m_m_i_inst hL, scale_thermal_zero_momentum_i_m_m_i_same_mass_inst hL, scale_thermal_zero_momentum_i_m_0_i_inst hL, scale_thermal_zero_momentum_i_0_0_i_inst hL, scale_thermal_zero_momentum_i_m_m_l_i_inst hL, scale_thermal_zero_momentum_i_m_m_l_i_same_mass_inst hL, scale_thermal_zero_momentum_i_m_0_l_i_inst hL, scale_thermal_zero_momentum_i_0_0_l_i_inst hL, scale_thermal_zero_momentum_i_m_m_t_i_inst hL, scale_thermal_zero_momentum_i_m_m_t_i_same_mass_inst hL, scale_thermal_zero_momentum_i_m_0_t_i_inst hL, scale_thermal_zero_momentum_i_0_0_t_i_inst hL, scale_thermal_zero_momentum_d_i_m_m_i_inst hL, scale_thermal_zero_momentum_d_i_m_m_i_same_mass_inst hL, scale_thermal_zero_momentum_d_i_m_0_i_inst hL, scale_thermal_zero_momentum_d_i_0_0_i_inst hL, scale_thermal_zero_momentum_d_i_m_m_l_i_inst hL, scale_thermal_zero_momentum_d_i_m_m_l_i_same_mass_inst hL, scale_thermal_zero_momentum_d_i_m_0_l_i_inst hL, scale_thermal_zero_momentum_d_i_0_0_l_i_inst hL, scale_thermal_zero_momentum_d_i_m_m_t_i_inst hL, scale_thermal_zero_momentum_d_i_m_m_t_i_same_mass_inst hL, scale_thermal_zero_momentum_d_i_m_0_t_i_inst hL, scale_thermal_zero_momentum_d_i_0_0_t_i_inst hL, scale_thermal_zero_matsubara_i_m_m_i_inst hL, scale_thermal_zero_matsubara_i_m_m_i_same_mass_inst hL, scale_thermal_zero_matsubara_i_m_0_i_inst hL, scale_thermal_zero_matsubara_i_0_0_i hL, scale_thermal_zero_matsubara_i_m_m_l_i_inst hL, scale_thermal_zero_matsubara_i_m_m_l_i_same_mass_inst hL, scale_thermal_zero_matsubara_i_m_0_l_i_inst hL, scale_thermal_zero_matsubara_i_0_0_l_i hL, scale_thermal_zero_matsubara_i_m_m_t_i_inst hL, scale_thermal_zero_matsubara_i_m_m_t_i_same_mass_inst hL, scale_thermal_zero_matsubara_i_m_0_t_i_inst hL, scale_thermal_zero_matsubara_i_0_0_t_i hL, scale_thermal_zero_matsubara_d_i_m_m_i_inst hL, scale_thermal_zero_matsubara_d_i_m_m_i_same_mass_inst hL, scale_thermal_zero_matsubara_d_i_m_0_i_inst hL, scale_thermal_zero_matsubara_d_i_0_0_i hL, scale_thermal_zero_matsubara_d_i_m_m_l_i_inst hL, scale_thermal_zero_matsubara_d_i_m_m_l_i_same_mass_inst hL, scale_thermal_zero_matsubara_d_i_m_0_l_i_inst hL, scale_thermal_zero_matsubara_d_i_0_0_l_i hL, scale_thermal_zero_matsubara_d_i_m_m_t_i_inst hL, scale_thermal_zero_matsubara_d_i_m_m_t_i_same_mass_inst hL, scale_thermal_zero_matsubara_d_i_m_0_t_i_inst hL, scale_thermal_zero_matsubara_d_i_0_0_t_i hL]
  field_simp
  try ring

theorem scale_gluon_thermal_zero_momentum_polarization_quark_l_thermal_part_landau_i {L : ℝ} (hL : 0 < L) (k : Consts ℝ) (q : ℝ) (om : T) (mq : ℝ) (beta : ℝ) (mu : ℝ) :
    gluon.thermal.zero_momentum.polarization_quark_l_thermal_part_landau_i k (L * q) (ofR L * om) (L * mq) (beta / L) (L * mu) = (ofR L : T) ^ (1 : ℤ) * gluon.thermal.zero_momentum.polarization_quark_l_thermal_part_landau_i k q om mq beta mu := by
  have hL0 : (L : ℂ) ≠ 0 := Complex.ofReal_ne_zero.2 hL.ne'
  apply toC_injective
  simp only [map_mul, map_zpow₀, toC_ofR]
  refine (toC_gluon_thermal_zero_momentum_polarization_quark_l_thermal_part_landau_i k (L * q) (ofR L * om) (L * mq) (beta / L) (L * mu)).trans (Eq.trans ?_ (congrArg ((L : ℂ) ^ (1 : ℤ) * ·) (toC_gluon_thermal_zero_momentum_polarization_quark_l_thermal_part_landau_i k q om mq beta mu).symm))
  simp only [gluon.thermal.zero_momentum.polarization_quark_l_thermal_part_landau_i, r_0_eq, r_0_same_mass_eq, tlog_eq, tlog_same_mass_eq, tlog_zero_mass_eq, tlog_l_eq, tlog_l_same_mass_eq, tlog_l_zero_mass_eq, tlog_t_eq, tlog_t_same_mass_eq, tlog_t_zero_mass_eq, zm_r_0_eq, zm_r_0_same_mass_eq, z0_r_0_C, z0_r_0_eq, z0_tlog_eq, z0_tlog_t_eq, toC_complex, toC_real, ofR_complex, ofR_real, toC_ofR, toC_zero, toC_energy, toC_bose, map_mul, map_add, map_neg, map_sub, map_inv₀, map_div₀, map_zpow₀, energy_scale_real hL, fermi_double_scale hL, fermi_double_zero_temp_scale hL]
  try push_cast
  try simp only [z0_r_0_R, z0_tlog_same_mass_eq, z0_tlog_zero_mass_eq, z0_tlog_t_same_mass_eq, z0_tlog_t_zero_mass_eq, ofReal_energy, ofReal_bose, Complex.ofReal_mul, Complex.ofReal_neg]
  have hm : ∀ a b : ℂ, (L : ℂ) * a * (L * b) = L * L * (a * b) := fun a b => by ring
  have hs : ∀ a b : ℂ, (L : ℂ) * L * a - L * L * b = L * L * (a - b) := fun a b => by ring
  try simp only [energy_scale hL, bose_scale hL, hm, hs, ← mul_neg, neg_neg]
  try simp only [energy_scale hL, bose_scale hL, hm, hs, TL_scale hL0, TL_scale_zero hL0, R0_scale, R0_scale_zero, R0_scale_pz, R0_scale_pz_zero, PF_scale hL0, PF_scale_zero hL0, ZL_scale hL0, ZL_scale_zero hL0]
  field_simp
  try ring

theorem scale_gluon_thermal_zero_momentum_polarization_quark_t_thermal_part_landau_i {L : ℝ} (hL : 0 < L) (k : Consts ℝ) (q : ℝ) (om : T) (mq : ℝ) (beta : ℝ) (mu : ℝ) :
    gluon.thermal.zero_momentum.polarization_quark_t_thermal_part_landau_i k (L * q) (ofR L * om) (L * mq) (beta / L) (L * mu) = (ofR L : T) ^ (1 : ℤ) * gluon.thermal.zero_momentum.polarization_quark_t_thermal_part_landau_i k q om mq beta mu := by
  have hL0 : (L : ℂ) ≠ 0 := Complex.ofReal_ne_zero.2 hL.ne'
  apply toC_injective
  simp only [map_mul, map_zpow₀, toC_ofR]
  refine (toC_gluon_thermal_zero_momentum_polarization_quark_t_thermal_part_landau_i k (L * q) (ofR L * om) (L * mq) (beta / L) (L * mu)).trans (Eq.trans ?_ (congrArg ((L : ℂ) ^ (1 : ℤ) * ·) (toC_gluon_thermal_zero_momentum_polarization_quark_t_thermal_part_landau_i k q om mq beta mu).symm))
  simp only [gluon.thermal.zero_momentum.polarization_quark_t_thermal_part_landau_i, gluon.thermal.zero_momentum.polarization_quark_l_thermal_part_landau_i, r_0_eq, r_0_same_mass_eq, tlog_eq, tlog_same_mass_eq, tlog_zero_mass_eq, tlog_l_eq, tlog_l_same_mass_eq, tlog_l_zero_mass_eq, tlog_t_eq, tlog_t_same_mass_eq, tlog_t_zero_mass_eq, zm_r_0_eq, zm_r_0_same_mass_eq, z0_r_0_C, z0_r_0_eq, z0_tlog_eq, z0_tlog_t_eq, toC_complex, toC_real, ofR_complex, ofR_real, toC_ofR, toC_zero, toC_energy, toC_bose, map_mul, map_add, map_neg, map_sub, map_inv₀, map_div₀, map_zpow₀, energy_scale_real hL, fermi_double_scale hL, fermi_double_zero_temp_scale hL]
  try push_cast
  try simp only [z0_r_0_R, z0_tlog_same_mass_eq, z0_tlog_zero_mass_eq, z0_tlog_t_same_mass_eq, z0_tlog_t_zero_mass_eq, ofReal_energy, ofReal_bose, Complex.ofReal_mul, Complex.ofReal_neg]
  have hm : ∀ a b : ℂ, (L : ℂ) * a * (L * b) = L * L * (a * b) := fun a b => by ring
  have hs : ∀ a b : ℂ, (L : ℂ) * L * a - L * L * b = L * L * (a - b) := fun a b => by ring
  try simp only [energy_scale hL, bose_scale hL, hm, hs, ← mul_neg, neg_neg]
  try simp only [energy_scale hL, bose_scale hL, hm, hs, TL_scale hL0, TL_scale_zero hL0, R0_scale, R0_scale_zero, R0_scale_pz, R0_scale_pz_zero, PF_scale hL0, PF_scale_zero hL0, ZL_scale hL0, ZL_scale_zero hL0]
  field_simp
  try ring

theorem scale_gluon_thermal_zero_momentum_polarization_quark_l_thermal_part_zero_temp_landau_i {L : ℝ} (hL : 0 < L) (k : Consts ℝ) (q : ℝ) (om : T) (mq : ℝ) (mu : ℝ) :
    gluon.thermal.zero_momentum.polarization_quark_l_thermal_part_zero_temp_landau_i k (L * q) (ofR L * om) (L * mq) (L * mu) = (ofR L : T) ^ (1 : ℤ) * gluon.thermal.zero_momentum.polarization_quark_l_thermal_part_zero_temp_landau_i k q om mq mu := by
  have hL0 : (L : ℂ) ≠ 0 := Complex.ofReal_ne_zero.2 hL.ne'
  apply toC_injective
  simp only [map_mul, map_zpow₀, toC_ofR]
  refine (toC_gluon_thermal_zero_momentum_polarization_quark_l_thermal_part_zero_temp_landau_i k (L * q) (ofR L * om) (L * mq) (L * mu)).trans (Eq.trans ?_ (congrArg ((L : ℂ) ^ (1 : ℤ) * ·) (toC_gluon_thermal_zero_momentum_polarization_quark_l_thermal_part_zero_temp_landau_i k q om mq mu).symm))
  simp only [gluon.thermal.zero_momentum.polarization_quark_l_thermal_part_zero_temp_landau_i, r_0_eq, r_0_same_mass_eq, tlog_eq, tlog_same_mass_eq, tlog_zero_mass_eq, tlog_l_eq, tlog_l_same_mass_eq, tlog_l_zero_mass_eq, tlog_t_eq, tlog_t_same_mass_eq, tlog_t_zero_mass_eq, zm_r_0_eq, zm_r_0_same_mass_eq, z0_r_0_C, z0_r_0_eq, z0_tlog_eq, z0_tlog_t_eq, toC_complex, toC_real, ofR_complex, ofR_real, toC_ofR, toC_zero, toC_energy, toC_bose, map_mul, map_add, map_neg, map_sub, map_inv₀, map_div₀, map_zpow₀, energy_scale_real hL, fermi_double_scale hL, fermi_double_zero_temp_scale hL]
  try push_cast
  try simp only [z0_r_0_R, z0_tlog_same_mass_eq, z0_tlog_zero_mass_eq, z0_tlog_t_same_mass_eq, z0_tlog_t_zero_mass_eq, ofReal_energy, ofReal_bose, Complex.ofReal_mul, Complex.ofReal_neg]
  have hm : ∀ a b : ℂ, (L : ℂ) * a * (L * b) = L * L * (a * b) := fun a b => by ring
  have hs : ∀ a b : ℂ, (L : ℂ) * L * a - L * L * b = L * L * (a - b) := fun a b => by ring
  try simp only [energy_scale hL, bose_scale hL, hm, hs, ← mul_neg, neg_neg]
  try simp only [energy_scale hL, bose_scale hL, hm, hs, TL_scale hL0, TL_scale_zero hL0, R0_scale, R0_scale_zero, R0_scale_pz, R0_scale_pz_zero, PF_scale hL0, PF_scale_zero hL0, ZL_scale hL0, ZL_scale_zero hL0]
  field_simp
  try ring

theorem scale_gluon_thermal_zero_momentum_polarization_quark_t_thermal_part_zero_temp_landau_i {L : ℝ} (hL : 0 < L) (k : Consts ℝ) (q : ℝ) (om : T) (mq : ℝ) (mu : ℝ) :
    gluon.thermal.zero_momentum.polarization_quark_t_thermal_part_zero_temp_landau_i k (L * q) (ofR L * om) (L * mq) (L * mu) = (ofR L : T) ^ (1 : ℤ) * gluon.thermal.zero_momentum.polarization_quark_t_thermal_part_zero_temp_landau_i k q om mq mu := by
  have hL0 : (L : ℂ) ≠ 0 := Complex.ofReal_ne_zero.2 hL.ne'
  apply toC_injective
  simp only [map_mul, map_zpow₀, toC_ofR]
  refine (toC_gluon_thermal_zero_momentum_polarization_quark_t_thermal_part_zero_temp_landau_i k (L * q) (ofR L * om) (L * mq) (L * mu)).trans (Eq.trans ?_ (congrArg ((L : ℂ) ^ (1 : ℤ) * ·) (toC_gluon_thermal_zero_momentum_polarization_quark_t_thermal_part_zero_temp_landau_i k q om mq mu).symm))
  simp only [gluon.thermal.zero_momentum.polarization_quark_t_thermal_part_zero_temp_landau_i, gluon.thermal.zero_momentum.polarization_quark_l_thermal_part_zero_temp_landau_i, r_0_eq, r_0_same_mass_eq, tlog_eq, tlog_same_mass_eq, tlog_zero_mass_eq, tlog_l_eq, tlog_l_same_mass_eq, tlog_l_zero_mass_eq, tlog_t_eq, tlog_t_same_mass_eq, tlog_t_zero_mass_eq, zm_r_0_eq, zm_r_0_same_mass_eq, z0_r_0_C, z0_r_0_eq, z0_tlog_eq, z0_tlog_t_eq, toC_complex, toC_real, ofR_complex, ofR_real, toC_ofR, toC_zero, toC_energy, toC_bose, map_mul, map_add, map_neg, map_sub, map_inv₀, map_div₀, map_zpow₀, energy_scale_real hL, fermi_double_scale hL, fermi_double_zero_temp_scale hL]
  try push_cast
  try simp only [z0_r_0_R, z0_tlog_same_mass_eq, z0_tlog_zero_mass_eq, z0_tlog_t_same_mass_eq, z0_tlog_t_zero_mass_eq, ofReal_energy, ofReal_bose, Complex.ofReal_mul, Complex.ofReal_neg]
  have hm : ∀ a b : ℂ, (L : ℂ) * a * (L * b) = L * L * (a * b) := fun a b => by ring
  have hs : ∀ a b : ℂ, (L : ℂ) * L * a - L * L * b = L * L * (a - b) := fun a b => by ring
  try simp only [energy_scale hL, bose_scale hL, hm, hs, ← mul_neg, neg_neg]
  try simp only [energy_scale hL, bose_scale hL, hm, hs, TL_scale hL0, TL_scale_zero hL0, R0_scale, R0_scale_zero, R0_scale_pz, R0_scale_pz_zero, PF_scale hL0, PF_scale_zero hL0, ZL_scale hL0, ZL_scale_zero hL0]
  field_simp
  try ring

end Qcd
