import Mathlib.Analysis.SpecialFunctions.Complex.LogDeriv
import Mathlib.MeasureTheory.Integral.IntervalIntegral.FundThmCalculus
import Mathlib.Analysis.SpecialFunctions.Integrals.Basic
import Verif.Lemmas.ThermalBranch
import Verif.Spec.ThermalLoop

/-! # Angular integrals of a simple pole -/

namespace Qcd
open MeasureTheory intervalIntegral

theorem slit_of_segment {a b : ℂ} (h : ∀ z ∈ Set.Icc (-1 : ℝ) 1, a + b * z ≠ 0) (t : ℝ) (ht : t ∈ Set.Icc (-1 : ℝ) 1) :
    (a + b * t) / (a - b) ∈ Complex.slitPlane := by
  have hm : a - b ≠ 0 := by simpa [sub_eq_add_neg] using h (-1) (by simp)
  rw [Complex.mem_slitPlane_iff_not_le_zero]
  intro hle
  -- w = (a + b t)/(a - b) is a nonpositive real
  obtain ⟨hre, him⟩ := Complex.le_def.1 hle
  simp only [Complex.zero_re, Complex.zero_im] at hre him
  set w := (a + b * t) / (a - b) with hw
  have hwr : w = (w.re : ℂ) := Complex.ext rfl (by simp [him])
  have e1 : a + b * t = (w.re : ℂ) * (a - b) := by rw [← hwr, hw]; field_simp
  have hpos : (0 : ℝ) < 1 - w.re := by linarith
  -- the zero is at z = (t + w.re)/(1 - w.re)
  refine h ((t + w.re) / (1 - w.re)) ⟨?_, ?_⟩ ?_
  · rw [le_div_iff₀ hpos]; linarith [ht.1]
  · rw [div_le_one hpos]; linarith [ht.2]
  · have hc : (1 - w.re : ℂ) ≠ 0 := by exact_mod_cast hpos.ne'
    push_cast
    field_simp
    linear_combination e1

theorem cont_inv {a b : ℂ} (h : ∀ z ∈ Set.Icc (-1 : ℝ) 1, a + b * z ≠ 0) :
    ContinuousOn (fun z : ℝ => (a + b * (z : ℂ))⁻¹) (Set.uIcc (-1) 1) := by
  rw [Set.uIcc_of_le (by norm_num)]
  exact ContinuousOn.inv₀ (by fun_prop) h

theorem int_inv {a b : ℂ} (hb : b ≠ 0) (h : ∀ z ∈ Set.Icc (-1 : ℝ) 1, a + b * z ≠ 0) :
    ∫ z in (-1 : ℝ)..1, (a + b * (z : ℂ))⁻¹ = Complex.log ((a + b) / (a - b)) / b := by
  have hm : a - b ≠ 0 := by simpa [sub_eq_add_neg] using h (-1) (by simp)
  have key : ∀ x ∈ Set.uIcc (-1 : ℝ) 1,
      HasDerivAt (fun z : ℝ => Complex.log ((a + b * (z : ℂ)) / (a - b)) / b) ((a + b * (x : ℂ))⁻¹) x := by
    intro x hx
    rw [Set.uIcc_of_le (by norm_num)] at hx
    have h1 : HasDerivAt (fun z : ℝ => (a + b * (z : ℂ)) / (a - b)) (b / (a - b)) x := by
      have := ((Complex.ofRealCLM.hasDerivAt (x := x)).const_mul b).const_add a |>.div_const (a - b)
      simpa using this
    have h2 := (h1.clog_real (slit_of_segment h x hx)).div_const b
    refine h2.congr_deriv ?_
    have := h x hx
    field_simp
  rw [integral_eq_sub_of_hasDerivAt key ((cont_inv h).intervalIntegrable)]
  simp only [Complex.ofReal_one, mul_one, Complex.ofReal_neg, mul_neg]
  rw [← sub_eq_add_neg, div_self hm, Complex.log_one]; simp

theorem int_id : ∫ z in (-1 : ℝ)..1, (z : ℂ) = 0 := by
  rw [integral_ofReal]; norm_num [integral_id]

theorem int_lin (a b c : ℂ) : ∫ z in (-1 : ℝ)..1, (c + (a + b * (z : ℂ))) = 2 * (c + a) := by
  have h : ∀ z : ℝ, c + (a + b * (z : ℂ)) = (c + a) + b * (z : ℂ) := fun z => by ring
  simp only [h]
  rw [integral_add (by simp) ((by fun_prop : Continuous fun z : ℝ => b * (z : ℂ)).intervalIntegrable _ _), intervalIntegral.integral_const_mul, int_id]
  simp; ring

/-- Division by the linear denominator: remainder over the pole plus a linear function. -/
theorem int_pole {a b : ℂ} (hb : b ≠ 0) (h : ∀ z ∈ Set.Icc (-1 : ℝ) 1, a + b * z ≠ 0) (r c e : ℂ) :
    ∫ z in (-1 : ℝ)..1, (r * (a + b * (z : ℂ))⁻¹ + c + e * (a + b * (z : ℂ)))
      = r * (Complex.log ((a + b) / (a - b)) / b) + 2 * c + 2 * (e * a) := by
  have i1 : IntervalIntegrable (fun z : ℝ => r * (a + b * (z : ℂ))⁻¹) volume (-1) 1 :=
    (continuousOn_const.mul (cont_inv h)).intervalIntegrable
  have i2 : IntervalIntegrable (fun z : ℝ => c + e * (a + b * (z : ℂ))) volume (-1) 1 :=
    (by fun_prop : Continuous fun z : ℝ => c + e * (a + b * (z : ℂ))).intervalIntegrable _ _
  have e1 : ∀ z : ℝ, r * (a + b * (z : ℂ))⁻¹ + c + e * (a + b * (z : ℂ))
      = r * (a + b * (z : ℂ))⁻¹ + (c + e * (a + b * (z : ℂ))) := fun z => by ring
  have e2 : ∀ z : ℝ, c + e * (a + b * (z : ℂ)) = c + (e * a + (e * b) * (z : ℂ)) := fun z => by ring
  simp only [e1]
  rw [integral_add i1 i2, intervalIntegral.integral_const_mul, int_inv hb h]
  simp only [e2]
  rw [int_lin]; ring

theorem int_pole_integrable {a b : ℂ} (h : ∀ z ∈ Set.Icc (-1 : ℝ) 1, a + b * z ≠ 0) (r c e : ℂ) :
    IntervalIntegrable (fun z : ℝ => r * (a + b * (z : ℂ))⁻¹ + c + e * (a + b * (z : ℂ))) volume (-1) 1 :=
  (((continuousOn_const.mul (cont_inv h)).add continuousOn_const).add
    (by fun_prop : Continuous fun z : ℝ => e * (a + b * (z : ℂ))).continuousOn).intervalIntegrable

/-- Sum of two such integrands. -/
theorem int_pole2 {a a' b : ℂ} (hb : b ≠ 0) (h : ∀ z ∈ Set.Icc (-1 : ℝ) 1, a + b * z ≠ 0 ∧ a' + b * z ≠ 0)
    {f : ℝ → ℂ} (r c e r' c' e' : ℂ)
    (hf : ∀ z ∈ Set.Icc (-1 : ℝ) 1, f z = (r * (a + b * (z : ℂ))⁻¹ + c + e * (a + b * (z : ℂ)))
      + (r' * (a' + b * (z : ℂ))⁻¹ + c' + e' * (a' + b * (z : ℂ)))) :
    ∫ z in (-1 : ℝ)..1, f z
      = r * (Complex.log ((a + b) / (a - b)) / b) + 2 * c + 2 * (e * a)
      + (r' * (Complex.log ((a' + b) / (a' - b)) / b) + 2 * c' + 2 * (e' * a')) := by
  have h1 := fun z hz => (h z hz).1
  have h2 := fun z hz => (h z hz).2
  rw [← int_pole hb h1, ← int_pole hb h2, ← integral_add (int_pole_integrable h1 _ _ _) (int_pole_integrable h2 _ _ _)]
  refine integral_congr fun z hz => ?_
  rw [Set.uIcc_of_le (by norm_num)] at hz
  exact hf z hz

/-! ### The on-shell denominators -/

theorem spec_en (q : ℝ) (m : ℂ) : Spec.en q m = energy q m := by
  simp only [Spec.en, energy, energy_squared, sqrt_complex, csqrt, ofR_complex]
  push_cast
  congr 1
  ring

theorem energy_sq (q : ℝ) (m : ℂ) : energy q m ^ 2 = (q : ℂ) ^ 2 + m ^ 2 := by
  rw [← spec_en, Spec.en, ← Complex.cpow_nat_mul]
  norm_num

theorem spec_bose (beta : ℝ) (e : ℂ) : Spec.bose beta e = bose_distribution_zero_chempot e beta := by
  simp only [Spec.bose, bose_distribution_zero_chempot, statistic_distribution_exponential_zero_chempot,
    exp_complex, ofR_complex, one_div, Complex.ofReal_one]
  rw [mul_comm]

theorem den_pos (q : ℝ) (om p m m' : ℂ) (z : ℝ) :
    Spec.den (Complex.I * Spec.en q m) q om p m' z = R0 om p (energy q m) (m' * m' - m * m) + (2 * q * p) * z := by
  have h := energy_sq q m
  simp only [Spec.den, R0, spec_en]
  linear_combination (energy q m) ^ 2 * Complex.I_sq - h

theorem den_neg (q : ℝ) (om p m m' : ℂ) (z : ℝ) :
    Spec.den (-(Complex.I * Spec.en q m)) q om p m' z = R0 (-om) p (energy q m) (m' * m' - m * m) + (2 * q * p) * z := by
  have h := energy_sq q m
  simp only [Spec.den, R0, spec_en]
  linear_combination (energy q m) ^ 2 * Complex.I_sq - h

theorem TL_eq (q : ℝ) (om p en d : ℂ) :
    TL q om p en d = Complex.log ((R0 om p en d + 2 * q * p) / (R0 om p en d - 2 * q * p)) := by
  unfold TL
  congr 2 <;> ring

theorem Spec.RegularLeg.poles {q : ℝ} {om p m m' : ℂ} (h : Spec.RegularLeg q om p m m') :
    ∀ z ∈ Set.Icc (-1 : ℝ) 1, R0 om p (energy q m) (m' * m' - m * m) + (2 * q * p) * z ≠ 0 ∧
      R0 (-om) p (energy q m) (m' * m' - m * m) + (2 * q * p) * z ≠ 0 := by
  intro z hz
  rw [← den_pos, ← den_neg]
  exact h z hz

end Qcd
