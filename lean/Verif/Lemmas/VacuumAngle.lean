import Mathlib.Analysis.SpecialFunctions.Trigonometric.ArctanDeriv
import Mathlib.Analysis.SpecialFunctions.Integrals.Basic
import Mathlib.MeasureTheory.Integral.IntervalIntegral.FundThmCalculus

/-! # Angular integrals of a massless line in four dimensions -/

namespace Qcd.Hyper
open MeasureTheory Set intervalIntegral
open scoped Real

theorem cos_den_pos {r : ℝ} (h0 : 0 ≤ r) (h1 : r < 1) (t : ℝ) : 0 < 1 + r ^ 2 + 2 * r * Real.cos t := by
  have := Real.neg_one_le_cos t
  nlinarith [mul_le_mul_of_nonneg_left this h0, mul_pos (sub_pos.2 h1) (sub_pos.2 h1)]

theorem cos_one_pos {r : ℝ} (h0 : 0 ≤ r) (h1 : r < 1) (t : ℝ) : 0 < 1 + r * Real.cos t := by
  have := Real.neg_one_le_cos t
  nlinarith [mul_le_mul_of_nonneg_left this h0]

theorem poisson {r : ℝ} (h0 : 0 ≤ r) (h1 : r < 1) : ∫ t in (0 : ℝ)..π, (1 + r ^ 2 + 2 * r * Real.cos t)⁻¹ = π / (1 - r ^ 2) := by
  have hr : 1 - r ^ 2 ≠ 0 := by nlinarith
  have hd : ∀ t ∈ uIcc (0 : ℝ) π, HasDerivAt (fun t => (t - 2 * Real.arctan (r * Real.sin t / (1 + r * Real.cos t))) / (1 - r ^ 2))
      (1 + r ^ 2 + 2 * r * Real.cos t)⁻¹ t := fun t _ => by
    have hc := cos_one_pos h0 h1 t
    have hq := cos_den_pos h0 h1 t
    have e1 : HasDerivAt (fun t => r * Real.sin t / (1 + r * Real.cos t))
        ((r * Real.cos t * (1 + r * Real.cos t) - r * Real.sin t * (r * -Real.sin t)) / (1 + r * Real.cos t) ^ 2) t :=
      ((Real.hasDerivAt_sin t).const_mul r).fun_div (((Real.hasDerivAt_cos t).const_mul r).const_add 1) hc.ne'
    have e2 := (((hasDerivAt_id t).sub (e1.arctan.const_mul 2)).div_const (1 - r ^ 2))
    refine e2.congr_deriv ?_
    have hs : 1 + (r * Real.sin t / (1 + r * Real.cos t)) ^ 2 = (1 + r ^ 2 + 2 * r * Real.cos t) / (1 + r * Real.cos t) ^ 2 := by
      have := Real.sin_sq_add_cos_sq t
      field_simp
      linear_combination r ^ 2 * this
    rw [hs]
    have := Real.sin_sq_add_cos_sq t
    generalize Real.cos t = c at *
    generalize Real.sin t = s at *
    field_simp
    rw [show s ^ 2 = 1 - c ^ 2 by linarith]
    ring
  rw [integral_eq_sub_of_hasDerivAt hd]
  · simp
  · refine Continuous.intervalIntegrable ?_ _ _
    exact Continuous.inv₀ (by fun_prop) fun t => (cos_den_pos h0 h1 t).ne'

theorem cos_int : ∫ t in (0 : ℝ)..π, Real.cos t = 0 := by simp
theorem cos2_int : ∫ t in (0 : ℝ)..π, Real.cos t ^ 2 = π / 2 := by
  rw [integral_cos_sq]; simp
theorem cos3_int : ∫ t in (0 : ℝ)..π, Real.cos t ^ 3 = 0 := by
  rw [integral_cos_pow_three]; simp

theorem sin4_small {r : ℝ} (h0 : 0 ≤ r) (h1 : r < 1) :
    ∫ t in (0 : ℝ)..π, Real.sin t ^ 4 * (1 + r ^ 2 + 2 * r * Real.cos t)⁻¹ = π / 8 * (3 - r ^ 2) := by
  rcases h0.eq_or_lt with rfl | h
  · have : ∀ t : ℝ, Real.sin t ^ 4 * (1 + (0 : ℝ) ^ 2 + 2 * 0 * Real.cos t)⁻¹ = Real.sin t ^ 4 := fun t => by norm_num
    simp only [this]
    have := integral_sin_pow (a := 0) (b := π) 2
    norm_num at this
    rw [this]
    ring
  have hr : 1 - r ^ 2 ≠ 0 := by nlinarith
  have key : ∀ t : ℝ, Real.sin t ^ 4 * (1 + r ^ 2 + 2 * r * Real.cos t)⁻¹ =
      (1 / (2 * r)) * Real.cos t ^ 3 + (-(1 + r ^ 2) / (4 * r ^ 2)) * Real.cos t ^ 2 + ((1 + r ^ 2) ^ 2 / (8 * r ^ 3) - 1 / r) * Real.cos t
        + ((1 + r ^ 2) / (2 * r ^ 2) - (1 + r ^ 2) ^ 3 / (16 * r ^ 4)) + (1 - r ^ 2) ^ 4 / (16 * r ^ 4) * (1 + r ^ 2 + 2 * r * Real.cos t)⁻¹ := fun t => by
    have hq := cos_den_pos h0 h1 t
    have hs : Real.sin t ^ 4 = (1 - Real.cos t ^ 2) ^ 2 := by
      rw [← Real.sin_sq]; ring
    rw [hs]
    generalize Real.cos t = c at *
    obtain ⟨d, hd⟩ : ∃ d, d = 1 + r ^ 2 + 2 * r * c := ⟨_, rfl⟩
    have hd0 : d ≠ 0 := hd ▸ hq.ne'
    rw [← hd]
    obtain rfl : c = (d - 1 - r ^ 2) / (2 * r) := by rw [hd]; field_simp; ring
    field_simp
    ring
  simp only [key]
  have c1 : Continuous fun t : ℝ => (1 + r ^ 2 + 2 * r * Real.cos t)⁻¹ :=
    Continuous.inv₀ (by fun_prop) fun t => (cos_den_pos h0 h1 t).ne'
  rw [integral_add (Continuous.intervalIntegrable (by fun_prop) _ _) (Continuous.intervalIntegrable (by fun_prop) _ _),
    integral_add (Continuous.intervalIntegrable (by fun_prop) _ _) (Continuous.intervalIntegrable (by fun_prop) _ _),
    integral_add (Continuous.intervalIntegrable (by fun_prop) _ _) (Continuous.intervalIntegrable (by fun_prop) _ _),
    integral_add (Continuous.intervalIntegrable (by fun_prop) _ _) (Continuous.intervalIntegrable (by fun_prop) _ _)]
  simp only [intervalIntegral.integral_const_mul, cos_int, cos2_int, cos3_int, poisson h0 h1, intervalIntegral.integral_const, smul_eq_mul]
  field_simp
  ring

/-- The integral over the angle of a massless line. -/
noncomputable def angle (a q : ℝ) : ℝ := if q ≤ a then π / 8 * (3 - q ^ 2 / a ^ 2) / a ^ 2 else π / 8 * (3 - a ^ 2 / q ^ 2) / q ^ 2

theorem sin4_den {a q : ℝ} (ha : 0 < a) (hq : 0 < q) (hne : q ≠ a) :
    ∫ t in (0 : ℝ)..π, Real.sin t ^ 4 * (q ^ 2 + a ^ 2 + 2 * a * q * Real.cos t)⁻¹ = angle a q := by
  rcases lt_or_gt_of_ne hne with h | h
  · have e : ∀ t : ℝ, Real.sin t ^ 4 * (q ^ 2 + a ^ 2 + 2 * a * q * Real.cos t)⁻¹ =
        (a ^ 2)⁻¹ * (Real.sin t ^ 4 * (1 + (q / a) ^ 2 + 2 * (q / a) * Real.cos t)⁻¹) := fun t => by
      have : q ^ 2 + a ^ 2 + 2 * a * q * Real.cos t = a ^ 2 * (1 + (q / a) ^ 2 + 2 * (q / a) * Real.cos t) := by field_simp; ring
      rw [this, mul_inv]
      ring
    simp only [e]
    rw [intervalIntegral.integral_const_mul, sin4_small (by positivity) ((div_lt_one ha).2 h), angle, if_pos h.le, div_pow]
    ring
  · have e : ∀ t : ℝ, Real.sin t ^ 4 * (q ^ 2 + a ^ 2 + 2 * a * q * Real.cos t)⁻¹ =
        (q ^ 2)⁻¹ * (Real.sin t ^ 4 * (1 + (a / q) ^ 2 + 2 * (a / q) * Real.cos t)⁻¹) := fun t => by
      have : q ^ 2 + a ^ 2 + 2 * a * q * Real.cos t = q ^ 2 * (1 + (a / q) ^ 2 + 2 * (a / q) * Real.cos t) := by field_simp
      rw [this, mul_inv]
      ring
    simp only [e]
    rw [intervalIntegral.integral_const_mul, sin4_small (by positivity) ((div_lt_one hq).2 h), angle, if_neg (not_le.2 h), div_pow]
    ring

theorem den_pos {a q : ℝ} (ha : 0 < a) (hq : 0 < q) (hne : q ≠ a) (t : ℝ) : 0 < q ^ 2 + a ^ 2 + 2 * a * q * Real.cos t := by
  have := Real.neg_one_le_cos t
  have h2 : 0 < (q - a) ^ 2 := by
    have := sub_ne_zero.2 hne
    positivity
  nlinarith [mul_le_mul_of_nonneg_left this (mul_pos ha hq).le]

end Qcd.Hyper
