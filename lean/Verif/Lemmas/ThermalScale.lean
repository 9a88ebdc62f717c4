import Verif.Lemmas.ThermalBranch

/-! # Scaling of the building blocks of the thermal integrands -/

namespace Qcd

theorem R0_scale (L om p en d : ℂ) : R0 (L * om) (L * p) (L * en) (L * L * d) = L * L * R0 om p en d := by
  unfold R0; ring

theorem R0_scale_zero (L om p en : ℂ) : R0 (L * om) (L * p) (L * en) 0 = L * L * R0 om p en 0 := by
  unfold R0; ring

theorem R0_scale_pz (L om en d : ℂ) : R0 (L * om) 0 (L * en) (L * L * d) = L * L * R0 om 0 en d := by
  unfold R0; ring

theorem R0_scale_pz_zero (L om en : ℂ) : R0 (L * om) 0 (L * en) 0 = L * L * R0 om 0 en 0 := by
  unfold R0; ring

theorem PF_scale {L : ℂ} (hL : L ≠ 0) (om p en d : ℂ) :
    PF (L * om) (L * p) (L * en) (L * L * d) = L * L * PF om p en d := by
  unfold PF
  rw [mul_inv]
  field_simp

theorem PF_scale_zero {L : ℂ} (hL : L ≠ 0) (om p en : ℂ) :
    PF (L * om) (L * p) (L * en) 0 = L * L * PF om p en 0 := by
  have := PF_scale hL om p en 0
  rwa [mul_zero] at this

theorem TL_scale {L : ℂ} (hL : L ≠ 0) (q om p en d : ℂ) :
    TL (L * q) (L * om) (L * p) (L * en) (L * L * d) = TL q om p en d := by
  unfold TL
  rw [R0_scale, show L * p * (L * q) * 2 = L * L * (p * q * 2) by ring, ← mul_neg, ← mul_add, ← mul_add,
    mul_div_mul_left _ _ (mul_ne_zero hL hL)]

theorem TL_scale_zero {L : ℂ} (hL : L ≠ 0) (q om p en : ℂ) :
    TL (L * q) (L * om) (L * p) (L * en) 0 = TL q om p en 0 := by
  have := TL_scale hL q om p en 0
  rwa [mul_zero] at this

theorem ZL_scale {L : ℂ} (hL : L ≠ 0) (q p d : ℂ) : ZL (L * q) (L * p) (L * L * d) = ZL q p d := by
  unfold ZL
  rw [show L * p * (L * p) + L * L * d + L * q * 2 * (L * p) = L * L * (p * p + d + q * 2 * p) by ring,
    show L * p * (L * p) + L * L * d - L * q * 2 * (L * p) = L * L * (p * p + d - q * 2 * p) by ring,
    mul_div_mul_left _ _ (mul_ne_zero hL hL)]

theorem ZL_scale_zero {L : ℂ} (hL : L ≠ 0) (q p : ℂ) : ZL (L * q) (L * p) 0 = ZL q p 0 := by
  have := ZL_scale hL q p 0
  rwa [mul_zero] at this

theorem csqrt_scale {L : ℝ} (hL : 0 < L) (z : ℂ) : csqrt ((L : ℂ) * L * z) = L * csqrt z := by
  unfold csqrt
  by_cases hz : z = 0
  · subst hz; simp
  have hL0 : (L : ℂ) ≠ 0 := Complex.ofReal_ne_zero.2 hL.ne'
  have h : (L : ℂ) * L * z = ((L * L : ℝ) : ℂ) * z := by push_cast; rfl
  rw [h, Complex.cpow_def_of_ne_zero (by simp [hL.ne', hz]), Complex.cpow_def_of_ne_zero hz,
    Complex.log_ofReal_mul (mul_pos hL hL) hz, Real.log_mul hL.ne' hL.ne', add_mul, Complex.exp_add]
  congr 1
  rw [show ((Real.log L + Real.log L : ℝ) : ℂ) * (1 / 2) = (Real.log L : ℂ) by push_cast; ring,
    ← Complex.ofReal_exp, Real.exp_log hL]

theorem energy_scale {L : ℝ} (hL : 0 < L) (q : ℝ) (m : ℂ) :
    energy (L * q) ((L : ℂ) * m) = L * energy q m := by
  unfold energy energy_squared
  simp only [sqrt_complex, ofR_complex]
  rw [← csqrt_scale hL]
  congr 1; push_cast; ring

theorem energy_scale_real {L : ℝ} (hL : 0 < L) (q m : ℝ) :
    energy (L * q) (L * m) = L * energy q m := by
  apply Complex.ofReal_injective
  have := energy_scale hL q (m : ℂ)
  push_cast
  rw [ofReal_energy, ofReal_energy, ← this]; push_cast; rfl

theorem bose_scale {L : ℝ} (hL : 0 < L) (en : ℂ) (beta : ℝ) :
    bose_distribution_zero_chempot ((L : ℂ) * en) (beta / L) = bose_distribution_zero_chempot en beta := by
  have hL0 : (L : ℂ) ≠ 0 := Complex.ofReal_ne_zero.2 hL.ne'
  unfold bose_distribution_zero_chempot statistic_distribution_exponential_zero_chempot
  simp only [ofR_complex]
  congr 3
  push_cast
  field_simp

theorem fermi_double_scale {L : ℝ} (hL : 0 < L) (en beta mu : ℝ) :
    fermi_distribution_double (L * en) (beta / L) (L * mu) = fermi_distribution_double en beta mu := by
  unfold fermi_distribution_double statistic_distribution_exponential
  have h1 : (L * en - up (L * mu)) * ofR (beta / L) = (en - up mu) * (ofR beta : ℝ) := by
    simp only [up_self, ofR_real]; field_simp
  have h2 : (L * en - up (-(L * mu))) * ofR (beta / L) = (en - up (-mu)) * (ofR beta : ℝ) := by
    simp only [up_self, ofR_real]; field_simp
  rw [h1, h2]

theorem fermi_double_zero_temp_scale {L : ℝ} (hL : 0 < L) (en mu : ℝ) :
    fermi_distribution_double_zero_temp (L * en) (L * mu) = fermi_distribution_double_zero_temp en mu := by
  have h : ∀ a b : ℝ, fermi_distribution_zero_temp (L * a) (L * b) = fermi_distribution_zero_temp a b := by
    intro a b
    unfold fermi_distribution_zero_temp re
    simp only [gt_iff_lt]
    have : ((Num.toC : ℝ →+* ℂ) (L * b)).re < ((Num.toC : ℝ →+* ℂ) (L * a)).re ↔
        ((Num.toC : ℝ →+* ℂ) b).re < ((Num.toC : ℝ →+* ℂ) a).re := by
      change L * b < L * a ↔ b < a
      exact mul_lt_mul_iff_right₀ hL
    simp only [this]
  unfold fermi_distribution_double_zero_temp
  rw [← mul_neg, h, h]

end Qcd
