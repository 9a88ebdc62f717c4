import Mathlib.Analysis.SpecialFunctions.Trigonometric.Cotangent
import Mathlib.Analysis.SpecialFunctions.ImproperIntegrals
import Mathlib.Analysis.SpecialFunctions.Complex.LogDeriv
import Mathlib.LinearAlgebra.Lagrange

/-! # Sums over Matsubara frequencies of rational functions -/

namespace Qcd.Matsubara
open Filter Topology Complex MeasureTheory
open scoped Real

variable {ι : Type} {s : Finset ι} {c z : ι → ℂ}

/-! ### Decay -/

theorem one_add_sq_le {z : ℂ} (hz : z.im ≠ 0) : ∃ C > 0, ∀ w : ℝ, 1 + w ^ 2 ≤ C * ‖(w : ℂ) - z‖ ^ 2 := by
  refine ⟨2 + (1 + 2 * z.re ^ 2) / z.im ^ 2, by positivity, fun w => ?_⟩
  have hb : 0 < z.im ^ 2 := by positivity
  have h : ‖(w : ℂ) - z‖ ^ 2 = (w - z.re) ^ 2 + z.im ^ 2 := by
    rw [← Complex.normSq_eq_norm_sq, Complex.normSq_apply]; simp; ring
  rw [h, add_mul]
  have h2 : (1 + 2 * z.re ^ 2) ≤ (1 + 2 * z.re ^ 2) / z.im ^ 2 * ((w - z.re) ^ 2 + z.im ^ 2) := by
    rw [div_mul_eq_mul_div, le_div_iff₀ hb]
    nlinarith [sq_nonneg (w - z.re), sq_nonneg z.re]
  nlinarith [sq_nonneg (w - 2 * z.re)]

theorem ne_of_im {z : ℂ} (hz : z.im ≠ 0) (w : ℝ) : (w : ℂ) - z ≠ 0 := by
  intro h
  apply hz
  have := congrArg Complex.im h
  simpa using this

/-- The difference of two simple poles is bounded by `C/(1+w²)`. -/
theorem norm_pole_sub_le {z u : ℂ} (hz : z.im ≠ 0) (hu : u.im ≠ 0) : ∃ C, ∀ w : ℝ, ‖1 / ((w : ℂ) - z) - 1 / ((w : ℂ) - u)‖ ≤ C * (1 + w ^ 2)⁻¹ := by
  obtain ⟨C1, h1, b1⟩ := one_add_sq_le hz
  obtain ⟨C2, h2, b2⟩ := one_add_sq_le hu
  refine ⟨‖z - u‖ * Real.sqrt (C1 * C2), fun w => ?_⟩
  have hzw := ne_of_im hz w
  have huw := ne_of_im hu w
  have e : 1 / ((w : ℂ) - z) - 1 / ((w : ℂ) - u) = (z - u) / (((w : ℂ) - z) * ((w : ℂ) - u)) := by field_simp; ring
  have hp : 0 < 1 + w ^ 2 := by positivity
  rw [e, norm_div, norm_mul, div_eq_mul_inv, mul_assoc]
  refine mul_le_mul_of_nonneg_left ?_ (norm_nonneg _)
  have hn : 0 < ‖(w : ℂ) - z‖ * ‖(w : ℂ) - u‖ := mul_pos (norm_pos_iff.2 hzw) (norm_pos_iff.2 huw)
  rw [inv_le_iff_one_le_mul₀ hn]
  rw [show Real.sqrt (C1 * C2) * (1 + w ^ 2)⁻¹ * (‖(w : ℂ) - z‖ * ‖(w : ℂ) - u‖) = Real.sqrt (C1 * C2) * (‖(w : ℂ) - z‖ * ‖(w : ℂ) - u‖) / (1 + w ^ 2) by
    rw [div_eq_mul_inv]; ring]
  rw [one_le_div hp]
  rw [← abs_of_pos hp, ← Real.sqrt_sq_eq_abs]
  rw [show Real.sqrt (C1 * C2) * (‖(w : ℂ) - z‖ * ‖(w : ℂ) - u‖) = Real.sqrt (C1 * C2 * (‖(w : ℂ) - z‖ * ‖(w : ℂ) - u‖) ^ 2) by
    rw [Real.sqrt_mul (x := C1 * C2) (by positivity), Real.sqrt_sq hn.le]]
  apply Real.sqrt_le_sqrt
  nlinarith [mul_le_mul (b1 w) (b2 w) hp.le (by positivity)]

/-- A sum of simple poles off the real axis whose residues add up to zero. -/
theorem sum_poles_eq (hc : ∑ j ∈ s, c j = 0) (u : ℂ) (w : ℂ) :
    ∑ j ∈ s, c j / (w - z j) = ∑ j ∈ s, c j * (1 / (w - z j) - 1 / (w - u)) := by
  simp only [mul_sub, Finset.sum_sub_distrib, ← Finset.sum_mul, hc, zero_mul, sub_zero]
  simp only [mul_one_div]

theorem norm_sum_poles_le (hz : ∀ j ∈ s, (z j).im ≠ 0) (hc : ∑ j ∈ s, c j = 0) :
    ∃ C, ∀ w : ℝ, ‖∑ j ∈ s, c j / ((w : ℂ) - z j)‖ ≤ C * (1 + w ^ 2)⁻¹ := by
  have h : ∀ j, ∃ C, j ∈ s → ∀ w : ℝ, ‖1 / ((w : ℂ) - z j) - 1 / ((w : ℂ) - I)‖ ≤ C * (1 + w ^ 2)⁻¹ := by
    intro j
    by_cases hj : j ∈ s
    · obtain ⟨C, hC⟩ := norm_pole_sub_le (hz j hj) (u := I) (by simp)
      exact ⟨C, fun _ => hC⟩
    · exact ⟨0, fun h => absurd h hj⟩
  choose C hC using h
  refine ⟨∑ j ∈ s, ‖c j‖ * C j, fun w => ?_⟩
  rw [sum_poles_eq hc I, Finset.sum_mul]
  refine (norm_sum_le _ _).trans (Finset.sum_le_sum fun j hj => ?_)
  rw [norm_mul, mul_assoc]
  exact mul_le_mul_of_nonneg_left (hC j hj w) (norm_nonneg _)

theorem continuous_sum_poles (hz : ∀ j ∈ s, (z j).im ≠ 0) : Continuous fun w : ℝ => ∑ j ∈ s, c j / ((w : ℂ) - z j) := by
  refine continuous_finset_sum _ fun j hj => ?_
  exact continuous_const.div (by fun_prop) fun w => ne_of_im (hz j hj) w

theorem integrable_sum_poles (hz : ∀ j ∈ s, (z j).im ≠ 0) (hc : ∑ j ∈ s, c j = 0) :
    Integrable fun w : ℝ => ∑ j ∈ s, c j / ((w : ℂ) - z j) := by
  obtain ⟨C, hC⟩ := norm_sum_poles_le hz hc
  exact (integrable_inv_one_add_sq.const_mul C).mono' (continuous_sum_poles hz).aestronglyMeasurable (.of_forall hC)

/-! ### The integral -/

theorem tendsto_arg_right {z : ℂ} : Tendsto (fun R : ℝ => Complex.arg ((R : ℂ) - z)) atTop (𝓝 0) := by
  have h : Tendsto (fun R : ℝ => (1 : ℂ) - z * ((R⁻¹ : ℝ) : ℂ)) atTop (𝓝 1) := by
    have : Tendsto (fun R : ℝ => ((R⁻¹ : ℝ) : ℂ)) atTop (𝓝 0) := by
      exact_mod_cast (Complex.continuous_ofReal.tendsto 0).comp tendsto_inv_atTop_zero
    simpa using (this.const_mul z).const_sub 1
  have h2 := (Complex.continuousAt_arg (x := 1) (by simp)).tendsto.comp h
  rw [Complex.arg_one] at h2
  refine h2.congr' ?_
  filter_upwards [eventually_gt_atTop 0] with R hR
  have : ((R : ℂ) - z) = (R : ℂ) * (1 - z * ((R⁻¹ : ℝ) : ℂ)) := by
    have : (R : ℂ) ≠ 0 := by exact_mod_cast hR.ne'
    push_cast; field_simp
  rw [Function.comp_apply, this, Complex.arg_real_mul _ hR]

theorem tendsto_norm_ratio {z : ℂ} : Tendsto (fun R : ℝ => Real.log ‖(R : ℂ) - z‖ - Real.log ‖-(R : ℂ) - z‖) atTop (𝓝 0) := by
  have hi : Tendsto (fun R : ℝ => ((R⁻¹ : ℝ) : ℂ)) atTop (𝓝 0) := by
    exact_mod_cast (Complex.continuous_ofReal.tendsto 0).comp tendsto_inv_atTop_zero
  have h1 : Tendsto (fun R : ℝ => ‖(1 : ℂ) - z * ((R⁻¹ : ℝ) : ℂ)‖) atTop (𝓝 1) := by
    simpa using ((hi.const_mul z).const_sub 1).norm
  have h2 : Tendsto (fun R : ℝ => ‖(-1 : ℂ) - z * ((R⁻¹ : ℝ) : ℂ)‖) atTop (𝓝 1) := by
    simpa using ((hi.const_mul z).const_sub (-1)).norm
  have h := (((Real.continuousAt_log one_ne_zero).tendsto.comp h1).sub ((Real.continuousAt_log one_ne_zero).tendsto.comp h2))
  rw [sub_self] at h
  refine h.congr' ?_
  filter_upwards [eventually_gt_atTop (max 0 ‖z‖)] with R hR
  have hR0 : 0 < R := lt_of_le_of_lt (le_max_left _ _) hR
  have hRz : ‖z‖ < R := lt_of_le_of_lt (le_max_right _ _) hR
  have hRc : (R : ℂ) ≠ 0 := by exact_mod_cast hR0.ne'
  have e1 : ((R : ℂ) - z) = (R : ℂ) * (1 - z * ((R⁻¹ : ℝ) : ℂ)) := by push_cast; field_simp
  have e2 : (-(R : ℂ) - z) = (R : ℂ) * (-1 - z * ((R⁻¹ : ℝ) : ℂ)) := by push_cast; field_simp
  have n1 : ‖(R : ℂ) - z‖ ≠ 0 := by
    intro h0
    rw [norm_eq_zero, sub_eq_zero] at h0
    rw [← h0] at hRz; simp [abs_of_pos hR0] at hRz
  have n2 : ‖-(R : ℂ) - z‖ ≠ 0 := by
    intro h0
    rw [norm_eq_zero, sub_eq_zero] at h0
    rw [← h0] at hRz; simp [abs_of_pos hR0] at hRz
  rw [e1, norm_mul] at n1 ⊢
  rw [e2, norm_mul] at n2 ⊢
  rw [Real.log_mul (left_ne_zero_of_mul n1) (right_ne_zero_of_mul n1), Real.log_mul (left_ne_zero_of_mul n2) (right_ne_zero_of_mul n2)]
  simp

theorem hasDerivAt_log_sub {z : ℂ} (hz : z.im ≠ 0) (w : ℝ) : HasDerivAt (fun w : ℝ => Complex.log ((w : ℂ) - z)) (1 / ((w : ℂ) - z)) w := by
  have h : ((w : ℂ) - z) ∈ slitPlane := by
    rw [Complex.mem_slitPlane_iff]; right; simpa using hz
  have := (((hasDerivAt_id (w : ℂ)).sub_const z).clog h).comp_ofReal
  simpa using this

/-- `lim ∫_{-R}^R dw/(w - z) = ± iπ`. -/
theorem tendsto_integral_pole {z : ℂ} (hz : z.im ≠ 0) :
    Tendsto (fun R : ℝ => ∫ w in (-R)..R, 1 / ((w : ℂ) - z)) atTop (𝓝 (if 0 < z.im then π * I else -(π * I))) := by
  have hcont : Continuous fun w : ℝ => 1 / ((w : ℂ) - z) := continuous_const.div (by fun_prop) fun w => ne_of_im hz w
  have hint : ∀ R : ℝ, ∫ w in (-R)..R, 1 / ((w : ℂ) - z) = Complex.log ((R : ℂ) - z) - Complex.log (-(R : ℂ) - z) := by
    intro R
    rw [intervalIntegral.integral_eq_sub_of_hasDerivAt (fun w _ => hasDerivAt_log_sub hz w) (hcont.intervalIntegrable _ _)]
    simp
  simp only [hint]
  have hre := tendsto_norm_ratio (z := z)
  have harg : Tendsto (fun R : ℝ => Complex.arg ((R : ℂ) - z) - Complex.arg (-(R : ℂ) - z)) atTop (𝓝 (if 0 < z.im then π else -π)) := by
    have h1 := tendsto_arg_right (z := z)
    have h2 := tendsto_arg_right (z := -z)
    split_ifs with h
    · have := h1.sub (h2.sub_const π)
      rw [show (0 : ℝ) - (0 - π) = π by ring] at this
      refine this.congr fun R => ?_
      have e : -(R : ℂ) - z = -((R : ℂ) - -z) := by ring
      rw [e, Complex.arg_neg_eq_arg_sub_pi_of_im_pos (by simpa using h)]
    · have := h1.sub (h2.add_const π)
      rw [show (0 : ℝ) - (0 + π) = -π by ring] at this
      refine this.congr fun R => ?_
      have e : -(R : ℂ) - z = -((R : ℂ) - -z) := by ring
      rw [e, Complex.arg_neg_eq_arg_add_pi_of_im_neg (by simpa using lt_of_le_of_ne (not_lt.1 h) hz)]
  have := ((Complex.continuous_ofReal.tendsto _).comp hre).add (((Complex.continuous_ofReal.tendsto _).comp harg).mul_const I)
  rw [Complex.ofReal_zero, zero_add] at this
  have e : (((if 0 < z.im then π else -π : ℝ)) : ℂ) * I = if 0 < z.im then (π : ℂ) * I else -(π * I) := by
    split_ifs <;> push_cast <;> ring
  rw [e] at this
  refine this.congr fun R => ?_
  simp only [Function.comp_apply, Complex.log]
  push_cast
  ring

theorem integral_sum_poles (hz : ∀ j ∈ s, (z j).im ≠ 0) (hc : ∑ j ∈ s, c j = 0) :
    ∫ w : ℝ, ∑ j ∈ s, c j / ((w : ℂ) - z j) = ∑ j ∈ s, c j * (if 0 < (z j).im then π * I else -(π * I)) := by
  have h1 := intervalIntegral_tendsto_integral (integrable_sum_poles hz hc) tendsto_neg_atTop_atBot tendsto_id
  refine tendsto_nhds_unique h1 ?_
  have h2 : Tendsto (fun R : ℝ => ∑ j ∈ s, c j * ∫ w in (-R)..R, 1 / ((w : ℂ) - z j)) atTop
      (𝓝 (∑ j ∈ s, c j * (if 0 < (z j).im then π * I else -(π * I)))) :=
    tendsto_finset_sum _ fun j hj => (tendsto_integral_pole (hz j hj)).const_mul _
  refine h2.congr fun R => ?_
  rw [id, intervalIntegral.integral_finset_sum]
  · refine Finset.sum_congr rfl fun j hj => ?_
    rw [← intervalIntegral.integral_const_mul]
    simp only [mul_one_div]
  · intro j hj
    exact (Continuous.intervalIntegrable (continuous_const.div (by fun_prop) fun w => ne_of_im (hz j hj) w) _ _)

/-! ### The sum -/

theorem summable_lattice {F : ℝ → ℂ} {C : ℝ} (hF : ∀ w : ℝ, ‖F w‖ ≤ C * (1 + w ^ 2)⁻¹) {d : ℝ} (hd : 0 < d) :
    Summable fun n : ℤ => F (d * n) := by
  have h0 : Summable fun n : ℤ => (1 + (d * n) ^ 2)⁻¹ := by
    refine .of_norm_bounded_eventually (g := fun n : ℤ => (d ^ 2)⁻¹ * (1 / (n : ℝ) ^ 2))
      ((Real.summable_one_div_int_pow.mpr one_lt_two).mul_left _) ?_
    filter_upwards [(Set.finite_singleton (0 : ℤ)).compl_mem_cofinite] with n hn
    have hn0 : (n : ℝ) ≠ 0 := by exact_mod_cast hn
    rw [Real.norm_of_nonneg (by positivity), one_div, ← mul_inv, ← mul_pow]
    apply inv_anti₀ (by positivity)
    linarith
  exact .of_norm_bounded (g := fun n : ℤ => C * (1 + (d * n) ^ 2)⁻¹) (h0.mul_left C) fun n => hF _

theorem not_int_of_im {x : ℂ} (hx : x.im ≠ 0) : x ∈ Complex.integerComplement := by
  rintro ⟨n, rfl⟩
  simp at hx

/-- `Σ_n Σ_j c_j/(n - x_j) = -π Σ_j c_j cot(π x_j)`. -/
theorem tsum_int_poles {x : ι → ℂ} (hx : ∀ j ∈ s, (x j).im ≠ 0)
    (hs : Summable fun n : ℤ => ∑ j ∈ s, c j / ((n : ℂ) - x j)) :
    ∑' n : ℤ, ∑ j ∈ s, c j / ((n : ℂ) - x j) = -∑ j ∈ s, c j * (π * Complex.cot (π * x j)) := by
  set f : ℤ → ℂ := fun n => ∑ j ∈ s, c j / ((n : ℂ) - x j) with hf
  have h1 := (hs.hasSum.nat_add_neg).tendsto_sum_nat.comp (tendsto_add_atTop_nat 1)
  have h2 : Tendsto (fun N : ℕ => 2 * f 0 - ∑ j ∈ s, c j * ∑ n ∈ Finset.range N, cotTerm (x j) n) atTop
      (𝓝 (2 * f 0 - ∑ j ∈ s, c j * (π * Complex.cot (π * x j) - 1 / x j))) :=
    (tendsto_finset_sum _ fun j hj => (tendsto_logDeriv_euler_cot_sub (not_int_of_im (hx j hj))).const_mul _).const_sub _
  have h3 : ∀ N : ℕ, ∑ i ∈ Finset.range (N + 1), (f i + f (-(i : ℤ))) = 2 * f 0 - ∑ j ∈ s, c j * ∑ n ∈ Finset.range N, cotTerm (x j) n := by
    intro N
    rw [Finset.sum_range_succ']
    have : ∑ j ∈ s, c j * ∑ n ∈ Finset.range N, cotTerm (x j) n = -∑ i ∈ Finset.range N, (f ((i + 1 : ℕ) : ℤ) + f (-((i + 1 : ℕ) : ℤ))) := by
      simp only [Finset.mul_sum]
      rw [Finset.sum_comm, ← Finset.sum_neg_distrib]
      refine Finset.sum_congr rfl fun n _ => ?_
      simp only [hf, ← Finset.sum_add_distrib, ← Finset.sum_neg_distrib]
      refine Finset.sum_congr rfl fun j hj => ?_
      have a1 : ((n : ℂ) + 1) - x j ≠ 0 := by
        have := ne_of_im (hx j hj) ((n : ℝ) + 1); push_cast at this; exact this
      have a2 : -((n : ℂ) + 1) - x j ≠ 0 := by
        have := ne_of_im (hx j hj) (-((n : ℝ) + 1)); push_cast at this; push_cast; exact this
      have a3 : x j - ((n : ℂ) + 1) ≠ 0 := by rw [← neg_sub]; exact neg_ne_zero.2 a1
      have a4 : x j + ((n : ℂ) + 1) ≠ 0 := by
        intro h; apply a2; linear_combination -h
      simp only [cotTerm]
      push_cast
      rw [show -((n : ℂ) + 1) - x j = -(x j + ((n : ℂ) + 1)) by ring, show ((n : ℂ) + 1) - x j = -(x j - ((n : ℂ) + 1)) by ring, div_neg, div_neg]
      ring
    rw [this]
    simp
    ring
  have h4 := tendsto_nhds_unique h1 (h2.congr fun N => (h3 N).symm)
  have h5 : f 0 = -∑ j ∈ s, c j * (1 / x j) := by
    rw [hf, ← Finset.sum_neg_distrib]
    refine Finset.sum_congr rfl fun j _ => ?_
    simp [div_neg, div_eq_mul_inv]
  simp only [mul_sub, Finset.sum_sub_distrib] at h4
  linear_combination h4 + h5

/-! ### Sum minus integral -/

/-- The weight of a pole of the summand at `z` in the difference between the sum over the
frequencies `2πn/β + a` and the integral over the real axis. -/
noncomputable def weight (beta : ℝ) (a z : ℂ) : ℂ :=
  -(Complex.cot (beta * (z - a) / 2) / 2) - (if 0 < z.im then I / 2 else -(I / 2))

theorem sum_sub_integral {beta : ℝ} (hb : 0 < beta) {a : ℂ} (hz : ∀ j ∈ s, (z j).im ≠ 0) (ha : ∀ j ∈ s, (z j).im ≠ a.im)
    (hc : ∑ j ∈ s, c j = 0) :
    (Summable fun n : ℤ => ∑ j ∈ s, c j / (2 * π * n / beta + a - z j)) ∧
    1 / beta * ∑' n : ℤ, ∑ j ∈ s, c j / (2 * π * n / beta + a - z j) - 1 / (2 * π) * ∫ w : ℝ, ∑ j ∈ s, c j / ((w : ℂ) - z j)
      = ∑ j ∈ s, c j * weight beta a (z j) := by
  have hbc : (beta : ℂ) ≠ 0 := by exact_mod_cast hb.ne'
  have hpc : (π : ℂ) ≠ 0 := by exact_mod_cast Real.pi_ne_zero
  have hza : ∀ j ∈ s, (z j - a).im ≠ 0 := fun j hj => by
    rw [Complex.sub_im]; exact sub_ne_zero.2 (ha j hj)
  have hx : ∀ j ∈ s, (beta * (z j - a) / (2 * π)).im ≠ 0 := fun j hj => by
    have : beta * (z j - a) / (2 * π) = ((beta / (2 * π) : ℝ) : ℂ) * (z j - a) := by push_cast; ring
    rw [this, Complex.im_ofReal_mul]
    exact mul_ne_zero (by positivity) (hza j hj)
  obtain ⟨C, hC⟩ := norm_sum_poles_le (z := fun j => z j - a) hza hc
  have hs := summable_lattice hC (d := 2 * π / beta) (by positivity)
  have e1 : ∀ n : ℤ, ∑ j ∈ s, c j / (2 * π * n / beta + a - z j) = ∑ j ∈ s, c j / (((2 * π / beta * n : ℝ) : ℂ) - (z j - a)) := by
    intro n
    refine Finset.sum_congr rfl fun j _ => ?_
    congr 1
    push_cast; ring
  have e2 : ∀ n : ℤ, ∑ j ∈ s, c j / (((2 * π / beta * n : ℝ) : ℂ) - (z j - a)) = beta / (2 * π) * ∑ j ∈ s, c j / ((n : ℂ) - beta * (z j - a) / (2 * π)) := by
    intro n
    rw [Finset.mul_sum]
    refine Finset.sum_congr rfl fun j hj => ?_
    have : (((2 * π / beta * n : ℝ) : ℂ) - (z j - a)) = 2 * π / beta * ((n : ℂ) - beta * (z j - a) / (2 * π)) := by
      push_cast; field_simp
    rw [this, ← div_div, div_div_eq_mul_div]
    field_simp
  refine ⟨by simpa only [e1] using hs, ?_⟩
  have hs2 : Summable fun n : ℤ => ∑ j ∈ s, c j / ((n : ℂ) - beta * (z j - a) / (2 * π)) := by
    simp only [e2] at hs
    refine (summable_mul_left_iff ?_).1 hs
    exact div_ne_zero hbc (by simpa using hpc)
  simp only [e1, e2]
  rw [tsum_mul_left, tsum_int_poles hx hs2, integral_sum_poles hz hc, ← Finset.sum_neg_distrib, Finset.mul_sum, Finset.mul_sum, Finset.mul_sum, ← Finset.sum_sub_distrib]
  refine Finset.sum_congr rfl fun j _ => ?_
  have : (π : ℂ) * (beta * (z j - a) / (2 * π)) = beta * (z j - a) / 2 := by field_simp
  rw [this, weight]
  split_ifs <;> field_simp <;> ring

end Qcd.Matsubara
