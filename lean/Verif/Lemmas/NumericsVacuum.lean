import Verif.Lemmas.Branch
import Mathlib.Analysis.SpecialFunctions.Complex.Arg

/-! # The logarithm of the vacuum functions, written with `√(s+4)` and `√s` -/

namespace Qcd
open Complex

private theorem im_pair {u v s : ℂ} (hu : u ^ 2 = s + 4) (hv : v ^ 2 = s) :
    u.re * u.im = v.re * v.im ∧ u.re ^ 2 - u.im ^ 2 = v.re ^ 2 - v.im ^ 2 + 4 := by
  have h : u ^ 2 = v ^ 2 + 4 := by rw [hu, hv]
  have h1 := congrArg Complex.im h
  have h2 := congrArg Complex.re h
  simp [sq] at h1 h2
  constructor <;> nlinarith

theorem num_sqrt_quot {s : ℂ} (hs : s ∈ slitPlane) :
    csqrt (s⁻¹ * 4 + 1) = csqrt (s + 4) / csqrt s := by
  have h0 := slitPlane_ne_zero hs
  have h4 : s + 4 ∈ slitPlane := by simpa using slit_add_pos hs (r := 4) (by norm_num)
  have hu := csqrt_sq (s + 4)
  have hv := csqrt_sq s
  have hur := csqrt_re_pos h4
  have hvr := csqrt_re_pos hs
  obtain ⟨h1, -⟩ := im_pair hu hv
  generalize csqrt (s + 4) = u at *
  generalize csqrt s = v at *
  have hv0 : v ≠ 0 := by rintro rfl; simp at hvr
  apply csqrt_unique
  · rw [div_re]
    have hn : 0 < normSq v := normSq_pos.2 hv0
    have : 0 ≤ u.im * v.im := by
      have h2 : 0 ≤ (u.re * u.im) * (v.re * v.im) := by rw [h1]; exact mul_self_nonneg _
      have h3 : (u.re * u.im) * (v.re * v.im) = (u.re * v.re) * (u.im * v.im) := by ring
      rw [h3] at h2
      exact nonneg_of_mul_nonneg_right h2 (mul_pos hur hvr)
    have a1 : 0 < u.re * v.re / normSq v := div_pos (mul_pos hur hvr) hn
    have a2 : 0 ≤ u.im * v.im / normSq v := div_nonneg this hn.le
    linarith
  · rw [div_pow, hu, hv]; field_simp; ring

theorem num_ratio {s : ℂ} (hs : s ∈ slitPlane) :
    (csqrt (s + 4) - csqrt s) / (csqrt (s + 4) + csqrt s)
      = (csqrt (s⁻¹ * 4 + 1) - 1) / (csqrt (s⁻¹ * 4 + 1) + 1) := by
  have hvr := csqrt_re_pos hs
  have hv0 : csqrt s ≠ 0 := by intro h; rw [h] at hvr; simp at hvr
  rw [num_sqrt_quot hs]
  rw [div_sub_one hv0, div_add_one hv0, div_div_div_cancel_right₀ hv0]

private theorem arg_half {z : ℂ} (h : 0 < z.re) : -(Real.pi / 2) < z.arg ∧ z.arg < Real.pi / 2 :=
  abs_lt.1 (abs_arg_lt_pi_div_two_iff.2 (Or.inl h))

theorem num_log_ratio {s : ℂ} (hs : s ∈ slitPlane) :
    log ((csqrt (s⁻¹ * 4 + 1) - 1) / 2) * 2 + log s
      = log ((csqrt (s + 4) - csqrt s) / (csqrt (s + 4) + csqrt s)) := by
  have h0 := slitPlane_ne_zero hs
  have h4 : s + 4 ∈ slitPlane := by simpa using slit_add_pos hs (r := 4) (by norm_num)
  rw [num_sqrt_quot hs]
  have hu := csqrt_sq (s + 4)
  have hv := csqrt_sq s
  have hur := csqrt_re_pos h4
  have hvr := csqrt_re_pos hs
  obtain ⟨h1, h2⟩ := im_pair hu hv
  generalize csqrt (s + 4) = u at *
  generalize csqrt s = v at *
  have hv0 : v ≠ 0 := by rintro rfl; simp at hvr
  have hre : v.re < u.re := by
    by_contra hle
    push Not at hle
    have e1 : u.re ^ 2 * u.im ^ 2 = v.re ^ 2 * v.im ^ 2 := by rw [← mul_pow, ← mul_pow, h1]
    have e2 : u.re ^ 2 ≤ v.re ^ 2 := by gcongr
    have e3 : v.im ^ 2 ≤ u.im ^ 2 := by
      by_contra hlt
      push Not at hlt
      have : u.re ^ 2 * u.im ^ 2 < v.re ^ 2 * v.im ^ 2 :=
        calc u.re ^ 2 * u.im ^ 2 < u.re ^ 2 * v.im ^ 2 := by
              apply mul_lt_mul_of_pos_left hlt (pow_pos hur 2)
          _ ≤ v.re ^ 2 * v.im ^ 2 := by gcongr
      linarith
    linarith
  have ht : 0 < ((u - v) / 2).re := by
    have : ((u - v) / 2).re = (u.re - v.re) / 2 := by
      rw [show (2 : ℂ) = ((2 : ℝ) : ℂ) by norm_num, div_ofReal_re, sub_re]
    rw [this]; linarith
  have ht0 : (u - v) / 2 ≠ 0 := by intro h; rw [h] at ht; simp at ht
  have hsum : u + v ≠ 0 := by
    intro h; have := congrArg Complex.re h; simp at this; linarith
  have huv : (u - v) * (u + v) = 4 := by
    have : (u - v) * (u + v) = u ^ 2 - v ^ 2 := by ring
    rw [this, hu, hv]; ring
  have e1 : (u - v) / (u + v) = ((u - v) / 2) ^ 2 := by
    field_simp
    linear_combination (-(u - v)) * huv
  have e2 : (u / v - 1) / 2 = ((u - v) / 2) * v⁻¹ := by field_simp
  have a1 := arg_half ht
  have a2 := arg_half hvr
  have hvpi : v.arg ≠ Real.pi := by have := Real.pi_pos; intro h; rw [h] at a2; linarith [a2.2]
  have l1 : log s = 2 * log v := by
    rw [← hv, sq, log_mul hv0 hv0 (by constructor <;> linarith [a2.1, a2.2]), two_mul]
  have l2 : log (((u - v) / 2) ^ 2) = 2 * log ((u - v) / 2) := by
    rw [sq, log_mul ht0 ht0 (by constructor <;> linarith [a1.1, a1.2]), two_mul]
  have l3 : log (((u - v) / 2) * v⁻¹) = log ((u - v) / 2) - log v := by
    rw [log_mul ht0 (inv_ne_zero hv0), log_inv _ hvpi]
    · ring
    · rw [arg_inv, if_neg hvpi]
      constructor <;> linarith [a1.1, a1.2, a2.1, a2.2]
  rw [e1, e2, l1, l2, l3]
  ring

end Qcd
