import Mathlib.Analysis.SpecialFunctions.Log.Deriv
import Mathlib.Analysis.SpecialFunctions.Pow.Asymptotics
import Mathlib.Analysis.SpecialFunctions.Sqrt

/-! Small-argument expansions used for the infrared and ultraviolet limits. -/

namespace Qcd
open Filter Topology

/-- Second-order remainder of the logarithm. -/
noncomputable def logRem (x : ℝ) : ℝ := (Real.log (1 + x) - x + x ^ 2 / 2) / x ^ 2

theorem log_one_add_eq {x : ℝ} (hx : x ≠ 0) :
    Real.log (1 + x) = x - x ^ 2 / 2 + x ^ 2 * logRem x := by
  unfold logRem; field_simp; ring

theorem logRem_bound {x : ℝ} (hx : x ≠ 0) (h : |x| < 1 / 2) : |logRem x| ≤ 2 * |x| := by
  have h1 : |x| < 1 := by linarith
  have := Real.abs_log_sub_add_sum_range_le (x := -x) (by simpa using h1) 2
  simp only [Finset.sum_range_succ, Finset.sum_range_zero, abs_neg] at this
  norm_num at this
  have e : -x + x ^ 2 / 2 + Real.log (1 + x) = x ^ 2 * logRem x := by
    rw [log_one_add_eq hx]; ring
  rw [e, abs_mul, abs_of_nonneg (sq_nonneg x)] at this
  have hx2 : 0 < x ^ 2 := by positivity
  have h3 : |x| ^ 3 / (1 - |x|) ≤ x ^ 2 * (2 * |x|) := by
    rw [div_le_iff₀ (by linarith)]
    have : x ^ 2 = |x| ^ 2 := (sq_abs x).symm
    rw [this]
    have := abs_nonneg x
    nlinarith [pow_nonneg this 3]
  exact le_of_mul_le_mul_left (this.trans h3) hx2

theorem tendsto_logRem : Tendsto logRem (𝓝[≠] 0) (𝓝 0) := by
  apply squeeze_zero_norm' (a := fun x => 2 * |x|)
  · have h1 : ∀ᶠ x : ℝ in 𝓝[≠] 0, x ≠ 0 := eventually_mem_nhdsWithin
    have h2 : ∀ᶠ x : ℝ in 𝓝[≠] 0, |x| < 1 / 2 := by
      apply eventually_nhdsWithin_of_eventually_nhds
      exact (continuous_abs.tendsto (0 : ℝ)).eventually (gt_mem_nhds (by norm_num))
    filter_upwards [h1, h2] with x a b
    rw [Real.norm_eq_abs]; exact logRem_bound a b
  · have : Tendsto (fun x : ℝ => 2 * |x|) (𝓝 0) (𝓝 (2 * |0|)) :=
      (continuous_const.mul continuous_abs).tendsto 0
    simpa using this.mono_left nhdsWithin_le_nhds

theorem tendsto_logRem_pos : Tendsto logRem (𝓝[>] 0) (𝓝 0) :=
  tendsto_logRem.mono_left (nhdsWithin_mono _ (fun _ h => ne_of_gt h))

/-- `x ^ (n+1) * ln x → 0` from the right. -/
theorem tendsto_pow_mul_log (n : ℕ) :
    Tendsto (fun x : ℝ => x ^ (n + 1) * Real.log x) (𝓝[>] 0) (𝓝 0) := by
  have h := tendsto_log_mul_rpow_nhdsGT_zero (r := (n + 1 : ℕ)) (by positivity)
  refine h.congr (fun x => ?_)
  rw [Real.rpow_natCast]; ring

theorem tendsto_id_pos : Tendsto (fun x : ℝ => x) (𝓝[>] 0) (𝓝 0) :=
  tendsto_id.mono_left nhdsWithin_le_nhds

/-- `(1/u) ln((1-u)/(1+u)) → -2`. -/
theorem tendsto_log_ratio_div :
    Tendsto (fun u : ℝ => Real.log ((1 - u) / (1 + u)) / u) (𝓝[>] 0) (𝓝 (-2)) := by
  have hd : HasDerivAt (fun u : ℝ => Real.log (1 - u) - Real.log (1 + u)) (-2) 0 := by
    have h1 : HasDerivAt (fun u : ℝ => 1 - u) (-1) 0 := by
      simpa using (hasDerivAt_id (0 : ℝ)).const_sub 1
    have h2 : HasDerivAt (fun u : ℝ => 1 + u) 1 0 := by
      simpa using (hasDerivAt_id (0 : ℝ)).const_add 1
    have := (h1.log (by norm_num)).sub (h2.log (by norm_num))
    norm_num at this
    exact this
  have := hd.tendsto_slope_zero_right
  refine this.congr' ?_
  have h1 : ∀ᶠ x : ℝ in 𝓝[>] 0, x < 1 :=
    eventually_nhdsWithin_of_eventually_nhds (gt_mem_nhds (by norm_num))
  filter_upwards [h1, eventually_mem_nhdsWithin] with u hu hu0
  have hu0 : 0 < u := hu0
  rw [Real.log_div (by linarith) (by linarith)]
  simp
  field_simp

end Qcd
