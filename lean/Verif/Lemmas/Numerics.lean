import Verif.Model.Numerics
import Verif.Lemmas.ThermalLog
import Verif.Lemmas.Branch

/-! # The reference formulas in the normal form used for the library's integrands -/

namespace Qcd
open Complex
variable {T T1 T2 T3 T4 : Type} [Num T] [Num T1] [Num T2] [Num T3] [Num T4]

theorem toC_add' (a b : T) : toC (a + b) = toC a + toC b := map_add (Num.toC : T →+* ℂ) a b

theorem PI2_cast : ((PI2 : ℝ) : ℂ) = (Real.pi : ℂ) ^ 2 := by
  simp only [PI2]; push_cast; ring

theorem num_en (q : ℝ) (m : ℂ) : numerics.en q m = energy q m := by
  simp only [numerics.en, energy, energy_squared, sqrt_complex, ofR_complex]
  congr 1; push_cast; ring

theorem num_energy_sq (q : ℝ) (m : ℂ) : energy q m ^ 2 = q ^ 2 + m ^ 2 := by
  simp only [energy, energy_squared, sqrt_complex, ofR_complex, csqrt_sq]
  push_cast; ring

theorem num_bose (q : ℝ) (m : ℂ) (beta : ℝ) :
    numerics.bose q m beta = bose_distribution_zero_chempot (energy q m) beta := by
  simp only [numerics.bose, num_en, bose_distribution_zero_chempot,
    statistic_distribution_exponential_zero_chempot, exp_complex, ofR_complex, one_div]
  congr 3; ring_nf

theorem num_bose_neg (q : ℝ) (m : ℂ) (beta : ℝ) :
    1 / (exp (-energy q m * beta) - 1) = bose_distribution_zero_chempot (-energy q m) beta := by
  simp only [bose_distribution_zero_chempot,
    statistic_distribution_exponential_zero_chempot, exp_complex, ofR_complex, one_div]
  simp

theorem num_tlog (q : ℝ) (om p en d : ℂ) : numerics.tlog q om p en d = TL q om p en d := by
  simp only [numerics.tlog, TL, R0]
  congr 2 <;> ring

section denominators
variable (q p : ℝ) (om m1 m2 : ℂ)

theorem num_z_sq : (om + Complex.I * energy q m1) ^ 2
    = om * om + om * (energy q m1 * 2 * Complex.I) - (q ^ 2 + m1 ^ 2) := by
  have h := num_energy_sq q m1
  linear_combination (Complex.I ^ 2) * h + (q ^ 2 + m1 ^ 2) * Complex.I_sq

theorem num_den_p : (om + Complex.I * energy q m1) ^ 2 + numerics.en (q + p) m2 ^ 2
    = R0 om p (energy q m1) (m2 * m2 - m1 * m1) + p * q * 2 := by
  rw [num_z_sq, num_en, num_energy_sq]
  simp only [R0]; push_cast; ring

theorem num_den_m : (om + Complex.I * energy q m1) ^ 2 + numerics.en (q - p) m2 ^ 2
    = R0 om p (energy q m1) (m2 * m2 - m1 * m1) - p * q * 2 := by
  rw [num_z_sq, num_en, num_energy_sq]
  simp only [R0]; push_cast; ring

theorem num_den_p' : (om + Complex.I * energy q m1) ^ 2 + ((p : ℂ) + q) ^ 2 + m2 ^ 2
    = R0 om p (energy q m1) (m2 * m2 - m1 * m1) + p * q * 2 := by
  rw [num_z_sq]
  simp only [R0]; ring

theorem num_den_m' : (om + Complex.I * energy q m1) ^ 2 + ((p : ℂ) - q) ^ 2 + m2 ^ 2
    = R0 om p (energy q m1) (m2 * m2 - m1 * m1) - p * q * 2 := by
  rw [num_z_sq]
  simp only [R0]; ring

theorem num_den_z : (om + Complex.I * energy q m1) ^ 2 + energy q m2 ^ 2
    = R0 om 0 (energy q m1) (m2 * m2 - m1 * m1) := by
  rw [num_z_sq, num_energy_sq]
  simp only [R0]; ring

theorem num_pf (hom : om ≠ 0) :
    (om + Complex.I * energy q m1) ^ 2 + (q : ℂ) ^ 2 + m2 ^ 2
      + (p : ℂ) ^ 2 * (2 * (om + Complex.I * energy q m1) / om - 1)
    = R0 om p (energy q m1) (m2 * m2 - m1 * m1) + energy q m1 * (om⁻¹ * 2 * Complex.I * (p * p)) := by
  rw [num_z_sq]
  simp only [R0]; field_simp; ring

theorem num_pf' (hom : om ≠ 0) :
    (-om + Complex.I * energy q m1) ^ 2 + (q : ℂ) ^ 2 + m2 ^ 2
      + (p : ℂ) ^ 2 * (-2 * (-om + Complex.I * energy q m1) / om - 1)
    = R0 (-om) p (energy q m1) (m2 * m2 - m1 * m1) - energy q m1 * (om⁻¹ * 2 * Complex.I * (p * p)) := by
  rw [num_z_sq]
  simp only [R0]; field_simp; ring

theorem num_r : (om + Complex.I * energy q m1) ^ 2 + m2 ^ 2 + (q : ℂ) ^ 2 + (p : ℂ) ^ 2
    = R0 om p (energy q m1) (m2 * m2 - m1 * m1) := by
  rw [num_z_sq]
  simp only [R0]; ring

end denominators

end Qcd
