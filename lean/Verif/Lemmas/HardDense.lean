import Verif.Props.HighTemperature

/-! # The quark loop at high density

Scaling of the loop momentum with the chemical potential: the distribution of the quarks becomes a step. -/

set_option linter.unusedSimpArgs false

namespace Qcd
open MeasureTheory Filter Topology Set
open consts (Consts Integral)

theorem integral_step : (∫ y in Ioi (0 : ℝ), (if y < 1 then (1 : ℝ) else 0) * y) = 1 / 2 := by
  have h : ∀ y : ℝ, (if y < 1 then (1 : ℝ) else 0) * y = (Iio (1 : ℝ)).indicator (fun y => y) y := fun y => by
    by_cases hy : y < 1 <;> simp [hy]
  simp only [h]
  rw [setIntegral_indicator measurableSet_Iio, show Ioi (0 : ℝ) ∩ Iio 1 = Ioo 0 1 from rfl, ← integral_Ioc_eq_integral_Ioo,
    ← intervalIntegral.integral_of_le zero_le_one, integral_id]
  norm_num

/-- `W mu y` is the distribution at the momentum `mu * y`. -/
theorem dense_core {H : ℝ → ℂ} (hH : Measurable H) {C : ℝ} (hC : ∀ x, 0 < x → ‖H x‖ ≤ C * (1 + x)) {c : ℂ}
    (hlim : Tendsto (fun x : ℝ => H x / x) atTop (𝓝 c)) {N : ℝ → ℝ → ℝ} (hN : ∀ mu, Measurable (N mu)) {D : ℝ}
    (hD : ∀ᶠ mu in atTop, ∀ y, 0 < y → |N mu (mu * y)| ≤ D * Real.exp (-(4 / 4 * y)))
    (hN1 : ∀ y : ℝ, 0 < y → y ≠ 1 → Tendsto (fun mu => N mu (mu * y)) atTop (𝓝 (if y < 1 then 1 else 0))) :
    Tendsto (fun mu : ℝ => (∫ q in Ioi (0 : ℝ), ((N mu q : ℝ) : ℂ) * H q) / (mu : ℂ) ^ 2) atTop (𝓝 (c / 2)) := by
  have hC0 : 0 ≤ C := by
    have := (norm_nonneg _).trans (hC 1 one_pos)
    linarith
  let F : ℝ → ℝ → ℂ := fun mu y => ((N mu (mu * y) : ℝ) : ℂ) * ((mu : ℂ)⁻¹ * H (mu * y))
  have hF : ∀ mu : ℝ, 0 < mu → (∫ q in Ioi (0 : ℝ), ((N mu q : ℝ) : ℂ) * H q) / (mu : ℂ) ^ 2 = ∫ y in Ioi (0 : ℝ), F mu y := by
    intro mu hmu
    have h1 := integral_comp_mul_left_Ioi (fun q => ((N mu q : ℝ) : ℂ) * H q) 0 hmu
    rw [mul_zero] at h1
    have h2 : (∫ q in Ioi (0 : ℝ), ((N mu q : ℝ) : ℂ) * H q) / (mu : ℂ) ^ 2 =
        (mu : ℂ)⁻¹ * (mu⁻¹ • ∫ q in Ioi (0 : ℝ), ((N mu q : ℝ) : ℂ) * H q) := by
      rw [Complex.real_smul]; push_cast; ring
    rw [h2, ← h1, ← integral_const_mul]
    refine setIntegral_congr_fun measurableSet_Ioi fun y (hy : 0 < y) => ?_
    simp only [F]
    ring
  refine Tendsto.congr' (f₁ := fun mu => ∫ y in Ioi (0 : ℝ), F mu y) ?_ ?_
  · filter_upwards [eventually_gt_atTop 0] with mu hmu
    exact (hF mu hmu).symm
  have hlimint : c / 2 = ∫ y in Ioi (0 : ℝ), (((if y < 1 then (1 : ℝ) else 0) : ℝ) : ℂ) * (y * c) := by
    have : c / 2 = c * ((1 / 2 : ℝ) : ℂ) := by push_cast; ring
    rw [this, ← integral_step, ← integral_complex_ofReal, ← integral_const_mul]
    refine setIntegral_congr_fun measurableSet_Ioi fun y _ => ?_
    push_cast
    ring
  rw [hlimint]
  refine tendsto_integral_filter_of_dominated_convergence
    (fun y => D * C * (1 + y) ^ 1 * Real.exp (-(4 / 4 * y))) (.of_forall fun mu => ?_) ?_
    (Dom.bound_integrable (by norm_num) _ 1) ?_
  · have h1 : Measurable fun y => N mu (mu * y) := (hN mu).comp (measurable_const_mul _)
    have h2 : Measurable fun y => H (mu * y) := hH.comp (measurable_const_mul _)
    exact Measurable.aestronglyMeasurable (by simp only [F]; fun_prop)
  · filter_upwards [hD, eventually_ge_atTop 1] with mu hD hmu
    have hmu0 : 0 < mu := by linarith
    refine (ae_restrict_iff' measurableSet_Ioi).2 (.of_forall fun y (hy : 0 < y) => ?_)
    have e4 : ‖(mu : ℂ)⁻¹ * H (mu * y)‖ ≤ C * (1 + y) := by
      rw [norm_mul, norm_inv, Complex.norm_real, Real.norm_of_nonneg hmu0.le]
      calc mu⁻¹ * ‖H (mu * y)‖ ≤ mu⁻¹ * (C * (1 + mu * y)) := by gcongr; exact hC _ (by positivity)
        _ = C * (mu⁻¹ + y) := by field_simp
        _ ≤ C * (1 + y) := by gcongr; exact inv_le_one_of_one_le₀ hmu
    simp only [F]
    rw [norm_mul, Complex.norm_real, Real.norm_eq_abs, pow_one]
    calc _ ≤ D * Real.exp (-(4 / 4 * y)) * (C * (1 + y)) := mul_le_mul (hD y hy) e4 (norm_nonneg _) ((abs_nonneg _).trans (hD y hy))
      _ = _ := by ring
  · refine (ae_restrict_iff' measurableSet_Ioi).2 ?_
    have hne : ∀ᵐ y : ℝ, y ≠ 1 := by simp [ae_iff, measure_singleton]
    filter_upwards [hne] with y hy1 (hy : 0 < y)
    have e2 : Tendsto (fun mu : ℝ => (mu : ℂ)⁻¹ * H (mu * y)) atTop (𝓝 (y * c)) := by
      have h1 : Tendsto (fun mu : ℝ => mu * y) atTop atTop := tendsto_id.atTop_mul_const hy
      refine ((hlim.comp h1).const_mul (y : ℂ)).congr' ?_
      filter_upwards [eventually_gt_atTop 0] with mu hmu
      have hb : (mu : ℂ) ≠ 0 := Complex.ofReal_ne_zero.2 hmu.ne'
      have hy : (y : ℂ) ≠ 0 := Complex.ofReal_ne_zero.2 hy.ne'
      simp only [Function.comp]
      push_cast
      field_simp
    exact ((Complex.continuous_ofReal.tendsto _).comp (hN1 y hy hy1)).mul e2

/-! ### The two distributions -/

variable (mq : ℝ)

theorem dense_energy {mu : ℝ} (hmu : 0 < mu) (y : ℝ) : energy (mu * y) mq = mu * Real.sqrt (mq * mq * mu⁻¹ ^ 2 + y * y) := by
  rw [energy_real, show mq * mq + mu * y * (mu * y) = (mq * mq * mu⁻¹ ^ 2 + y * y) * mu ^ 2 by field_simp,
    Real.sqrt_mul (by have := mul_self_nonneg mq; have := mul_self_nonneg y; positivity), Real.sqrt_sq hmu.le, mul_comm]

theorem dense_u_le (mu : ℝ) {y : ℝ} (hy : 0 < y) : y ≤ Real.sqrt (mq * mq * mu⁻¹ ^ 2 + y * y) :=
  Real.le_sqrt_of_sq_le (by nlinarith [mul_nonneg (mul_self_nonneg mq) (sq_nonneg mu⁻¹)])

theorem dense_u_tendsto {y : ℝ} (hy : 0 < y) : Tendsto (fun mu : ℝ => Real.sqrt (mq * mq * mu⁻¹ ^ 2 + y * y)) atTop (𝓝 y) := by
  have := (((tendsto_inv_atTop_zero (𝕜 := ℝ)).pow 2).const_mul (mq * mq)).add_const (y * y)
  have h := (Real.continuous_sqrt.tendsto _).comp this
  rw [show mq * mq * 0 ^ 2 + y * y = y ^ 2 by ring, Real.sqrt_sq hy.le] at h
  exact h

theorem dense_fermi {H : ℝ → ℂ} (hH : Measurable H) {C : ℝ} (hC : ∀ x, 0 < x → ‖H x‖ ≤ C * (1 + x)) {c : ℂ}
    (hlim : Tendsto (fun x : ℝ => H x / x) atTop (𝓝 c)) {b : ℝ → ℝ} (hb : Tendsto (fun mu => b mu * mu) atTop atTop) :
    Tendsto (fun mu : ℝ => (∫ q in Ioi (0 : ℝ), ((fermi_distribution_double (energy q mq) (b mu) mu : ℝ) : ℂ) * H q) / (mu : ℂ) ^ 2) atTop (𝓝 (c / 2)) := by
  have e : ∀ mu y : ℝ, 0 < mu → fermi_distribution_double (energy (mu * y) mq) (b mu) mu =
      (Real.exp (b mu * mu * (Real.sqrt (mq * mq * mu⁻¹ ^ 2 + y * y) - 1)) + 1)⁻¹ +
      (Real.exp (b mu * mu * (Real.sqrt (mq * mq * mu⁻¹ ^ 2 + y * y) + 1)) + 1)⁻¹ := fun mu y hmu => by
    rw [fermi_double_real, dense_energy mq hmu]
    ring_nf
  refine dense_core (D := 2 * Real.exp 1) hH hC hlim (fun mu => ?_) ?_ fun y hy hy1 => ?_
  · simp only [fermi_double_real]
    have := energy_meas mq
    fun_prop
  · filter_upwards [eventually_gt_atTop 0, hb.eventually_ge_atTop 1] with mu hmu hb1 y hy
    rw [e mu y hmu, abs_of_nonneg (by positivity)]
    have hu := dense_u_le mq mu hy
    generalize Real.sqrt (mq * mq * mu⁻¹ ^ 2 + y * y) = u at *
    have h1 : (Real.exp (b mu * mu * (u - 1)) + 1)⁻¹ ≤ Real.exp 1 * Real.exp (-(4 / 4 * y)) := by
      rw [← Real.exp_add]
      rcases le_total u 1 with h | h
      · calc (Real.exp (b mu * mu * (u - 1)) + 1)⁻¹ ≤ 1 := inv_le_one_of_one_le₀ (by linarith [Real.exp_pos (b mu * mu * (u - 1))])
          _ ≤ _ := Real.one_le_exp (by linarith)
      · calc (Real.exp (b mu * mu * (u - 1)) + 1)⁻¹ ≤ (Real.exp (b mu * mu * (u - 1)))⁻¹ := inv_anti₀ (Real.exp_pos _) (by linarith)
          _ = Real.exp (-(b mu * mu * (u - 1))) := (Real.exp_neg _).symm
          _ ≤ _ := Real.exp_le_exp.2 (by nlinarith)
    have h2 : (Real.exp (b mu * mu * (u + 1)) + 1)⁻¹ ≤ Real.exp 1 * Real.exp (-(4 / 4 * y)) := by
      rw [← Real.exp_add]
      calc (Real.exp (b mu * mu * (u + 1)) + 1)⁻¹ ≤ (Real.exp (b mu * mu * (u + 1)))⁻¹ := inv_anti₀ (Real.exp_pos _) (by linarith)
          _ = Real.exp (-(b mu * mu * (u + 1))) := (Real.exp_neg _).symm
          _ ≤ _ := Real.exp_le_exp.2 (by nlinarith)
    linarith
  · have hu := dense_u_tendsto mq hy
    have hz : ∀ {g : ℝ → ℝ}, Tendsto g atTop atTop → Tendsto (fun mu => (Real.exp (g mu) + 1)⁻¹) atTop (𝓝 0) := fun hg =>
      (tendsto_atTop_add_const_right _ _ (Real.tendsto_exp_atTop.comp hg)).inv_tendsto_atTop
    have h2 := hz (hb.atTop_mul_pos (by linarith : 0 < y + 1) (hu.add_const 1))
    have h1 : Tendsto (fun mu => (Real.exp (b mu * mu * (Real.sqrt (mq * mq * mu⁻¹ ^ 2 + y * y) - 1)) + 1)⁻¹) atTop (𝓝 (if y < 1 then 1 else 0)) := by
      rcases lt_or_gt_of_ne hy1 with h | h
      · rw [if_pos h]
        have := (Real.tendsto_exp_atBot.comp (hb.atTop_mul_neg (by linarith : y - 1 < 0) (hu.sub_const 1))).add_const 1
        simpa using this.inv₀ (by norm_num)
      · rw [if_neg h.not_gt]
        exact hz (hb.atTop_mul_pos (by linarith : 0 < y - 1) (hu.sub_const 1))
    have h3 := h1.add h2
    rw [add_zero] at h3
    refine h3.congr' ?_
    filter_upwards [eventually_gt_atTop 0] with mu hmu
    exact (e mu y hmu).symm

theorem dense_zero_temp {H : ℝ → ℂ} (hH : Measurable H) {C : ℝ} (hC : ∀ x, 0 < x → ‖H x‖ ≤ C * (1 + x)) {c : ℂ}
    (hlim : Tendsto (fun x : ℝ => H x / x) atTop (𝓝 c)) :
    Tendsto (fun mu : ℝ => (∫ q in Ioi (0 : ℝ), ((fermi_distribution_double_zero_temp (energy q mq) mu : ℝ) : ℂ) * H q) / (mu : ℂ) ^ 2) atTop (𝓝 (c / 2)) := by
  have e : ∀ mu y : ℝ, 0 < mu → 0 < y → fermi_distribution_double_zero_temp (energy (mu * y) mq) mu =
      if Real.sqrt (mq * mq * mu⁻¹ ^ 2 + y * y) ≤ 1 then 1 else 0 := fun mu y hmu hy => by
    have hu := dense_u_le mq mu hy
    rw [C15_double_zero_temp_value _ _ (by rw [dense_energy mq hmu]; exact mul_pos hmu (hy.trans_le hu)), dense_energy mq hmu, abs_of_pos hmu]
    congr 1
    rw [eq_iff_iff]
    constructor
    · intro h; nlinarith
    · intro h; nlinarith
  refine dense_core (D := Real.exp 1) hH hC hlim (fun mu => ?_) ?_ fun y hy hy1 => ?_
  · have := energy_meas mq
    simp only [fermi_distribution_double_zero_temp, fermi_distribution_zero_temp, re, toC_real, Complex.ofReal_re]
    classical
    exact (Measurable.ite (measurableSet_lt measurable_const this) measurable_const measurable_const).add
      (Measurable.ite (measurableSet_lt measurable_const this) measurable_const measurable_const)
  · filter_upwards [eventually_gt_atTop 0] with mu hmu y hy
    rw [e mu y hmu hy, ← Real.exp_add]
    have hu := dense_u_le mq mu hy
    split_ifs with h
    · rw [abs_one]
      exact Real.one_le_exp (by linarith)
    · rw [abs_zero]
      positivity
  · have hu := dense_u_tendsto mq hy
    refine Tendsto.congr' (f₁ := fun _ => if y < 1 then 1 else 0) ?_ tendsto_const_nhds
    rcases lt_or_gt_of_ne hy1 with h | h
    · filter_upwards [eventually_gt_atTop 0, hu.eventually (gt_mem_nhds h)] with mu hmu hu
      rw [e mu y hmu hy, if_pos h, if_pos hu.le]
    · filter_upwards [eventually_gt_atTop 0, hu.eventually (lt_mem_nhds h)] with mu hmu hu
      rw [e mu y hmu hy, if_neg h.not_gt, if_neg (not_le.2 hu)]

end Qcd
