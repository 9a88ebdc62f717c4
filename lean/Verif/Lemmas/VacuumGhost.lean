import Verif.Lemmas.VacuumBall
import Verif.Lemmas.VacuumAngle
import Verif.Lemmas.Diagrams
import Verif.Spec.Vacuum
import Mathlib.Analysis.SpecialFunctions.Log.Deriv

/-! # The ghost self-energy in vacuum, with a cutoff -/

namespace Qcd.Hyper
open MeasureTheory Set Spec Matrix Filter Topology
open scoped Real RealInnerProductSpace

theorem vec_dot (P Q : E4) : vec P ⬝ᵥ vec Q = ((⟪P, Q⟫ : ℝ) : ℂ) := by
  rw [PiLp.inner_apply, dotProduct, Complex.ofReal_sum]
  refine Finset.sum_congr rfl fun i _ => ?_
  simp [vec, mul_comm]

theorem vec_msq (Q : E4) : msq (vec Q) = ((‖Q‖ ^ 2 : ℝ) : ℂ) := by
  rw [msq, vec_dot, real_inner_self_eq_norm_sq]

theorem vec_add (P Q : E4) : vec P + vec Q = vec (P + Q) := by
  ext i
  simp [vec]

/-- The ghost self-energy divided by the momentum squared. -/
noncomputable def gh (P : E4) (M : ℝ) (Q : E4) : ℝ := (1 - ⟪P, Q⟫ ^ 2 / (‖P‖ ^ 2 * ‖Q‖ ^ 2)) / ((‖Q‖ ^ 2 + M) * ‖P + Q‖ ^ 2)

theorem ghost_vec {P : E4} (hP : P ≠ 0) (M : ℝ) (Q : E4) :
    ghostSelfEnergy (vec P) M (vec Q) / msq (vec P) = ((-gh P M Q : ℝ) : ℂ) := by
  rw [ghostSelfEnergy, projector_mulVec, dotProduct_sub, dotProduct_smul, vec_add, vec_dot, vec_dot, vec_dot, vec_msq, vec_msq, vec_msq, gh]
  have h1 : ‖P‖ ≠ 0 := norm_ne_zero_iff.2 hP
  have h2 : (⟪P, P + Q⟫ : ℝ) = ‖P‖ ^ 2 + ⟪P, Q⟫ := by rw [inner_add_right, real_inner_self_eq_norm_sq]
  have h3 : (⟪Q, P + Q⟫ : ℝ) = ⟪P, Q⟫ + ‖Q‖ ^ 2 := by rw [inner_add_right, real_inner_self_eq_norm_sq, real_inner_comm]
  rw [h2, h3, smul_eq_mul]
  norm_cast
  rcases eq_or_ne Q 0 with rfl | hQ
  · simp
    field_simp
  · have h4 : ‖Q‖ ≠ 0 := norm_ne_zero_iff.2 hQ
    rw [neg_div, neg_div, div_right_comm]
    congr 2
    field_simp
    ring

theorem gh_rotation (U : E4 ≃ₗᵢ[ℝ] E4) (P : E4) (M : ℝ) (Q : E4) : gh (U P) M (U Q) = gh P M Q := by
  simp only [gh, LinearIsometryEquiv.inner_map_map, LinearIsometryEquiv.norm_map, ← map_add]

/-- The same with the momentum on the first axis. -/
noncomputable def ghAxis (a M : ℝ) (u : ℝ × ℝ) : ℝ :=
  (1 - u.1 ^ 2 / (u.1 ^ 2 + u.2 ^ 2)) / ((u.1 ^ 2 + u.2 ^ 2 + M) * (u.1 ^ 2 + u.2 ^ 2 + a ^ 2 + 2 * a * u.1))

theorem inner_e0 (a : ℝ) (Q : E4) : (⟪a • e0, Q⟫ : ℝ) = a * Q 0 := by
  rw [inner_smul_left, e0, EuclideanSpace.inner_single_left]
  simp

theorem gh_axis {a : ℝ} (ha : 0 < a) (M : ℝ) (Q : E4) : gh (a • e0) M Q = ghAxis a M (axis Q) := by
  have h1 : ‖a • e0 + Q‖ ^ 2 = ‖Q‖ ^ 2 + a ^ 2 + 2 * a * Q 0 := by
    rw [norm_add_sq_real, inner_e0, norm_smul, norm_e0, Real.norm_of_nonneg ha.le]
    ring
  rw [gh, h1, inner_e0, ghAxis, ← norm_axis, norm_smul, norm_e0, Real.norm_of_nonneg ha.le]
  have : (axis Q).1 = Q 0 := rfl
  rw [this, mul_one, mul_pow, mul_div_mul_left _ _ (by positivity)]

theorem measurable_ghAxis (a M : ℝ) : Measurable (ghAxis a M) := by unfold ghAxis; fun_prop

theorem ghAxis_nonneg (a : ℝ) {M : ℝ} (hM : 0 < M) (u : ℝ × ℝ) : 0 ≤ ghAxis a M u := by
  unfold ghAxis
  have h1 : u.1 ^ 2 / (u.1 ^ 2 + u.2 ^ 2) ≤ 1 := div_le_one_of_le₀ (by nlinarith) (by positivity)
  have h2 : 0 ≤ u.1 ^ 2 + u.2 ^ 2 + a ^ 2 + 2 * a * u.1 := by nlinarith [sq_nonneg (u.1 + a)]
  exact div_nonneg (by linarith) (by positivity)

theorem ghAxis_polar (a M : ℝ) {q : ℝ} (hq : 0 < q) (t : ℝ) :
    Real.sin t ^ 2 * ghAxis a M (polar (q, t)) = (q ^ 2 + M)⁻¹ * (Real.sin t ^ 4 * (q ^ 2 + a ^ 2 + 2 * a * q * Real.cos t)⁻¹) := by
  rw [ghAxis, polar_sq]
  simp only [polar]
  have h1 : 1 - (q * Real.cos t) ^ 2 / q ^ 2 = Real.sin t ^ 2 := by
    rw [mul_pow, mul_div_cancel_left₀ _ (by positivity), Real.sin_sq]
  rw [h1, div_eq_mul_inv, mul_inv, ← mul_assoc (2 * a) q]
  ring

theorem continuousOn_angle {a : ℝ} (ha : 0 < a) : Continuous fun q => angle a q := by
  unfold angle
  refine continuous_if_le continuous_id continuous_const (by fun_prop) ?_ ?_
  · refine ContinuousOn.div (ContinuousOn.mul continuousOn_const (continuousOn_const.sub (ContinuousOn.div continuousOn_const (by fun_prop) ?_)))
      (by fun_prop) ?_ <;>
    · intro q hq
      have h2 : a ≤ q := hq
      have : 0 < q := lt_of_lt_of_le ha h2
      positivity
  · rintro q rfl
    rfl

theorem ball_gh {P : E4} (hP : P ≠ 0) {M : ℝ} (hM : 0 < M) (R : ℝ) :
    IntegrableOn (gh P M) (Metric.ball 0 R) ∧
      ∫ Q in Metric.ball (0 : E4) R, gh P M Q = 4 * π * ∫ q in Ioo 0 R, q ^ 3 * ((q ^ 2 + M)⁻¹ * angle ‖P‖ q) := by
  obtain ⟨U, hU⟩ := exists_rotation P
  have hn : 0 < ‖P‖ := norm_pos_iff.2 hP
  obtain ⟨h1, h2⟩ := ball_rotation U (gh P M) R
  have e : (fun Q => gh P M (U Q)) = fun Q => ghAxis ‖P‖ M (axis Q) := by
    ext Q
    rw [← gh_axis hn, ← gh_rotation U (‖P‖ • e0), hU]
  rw [h1, h2, e]
  refine ball_axis (measurable_ghAxis _ _) (ghAxis_nonneg _ hM) (a := ‖P‖) (fun q hq hne => ?_) (fun q hq hne => ?_) ?_
  · simp only [ghAxis_polar _ _ hq]
    refine (Continuous.integrableOn_Icc ?_).mono_set Ioo_subset_Icc_self
    have : Continuous fun t => (q ^ 2 + ‖P‖ ^ 2 + 2 * ‖P‖ * q * Real.cos t)⁻¹ := Continuous.inv₀ (by fun_prop) fun t => (den_pos hn hq hne t).ne'
    fun_prop
  · simp only [ghAxis_polar _ _ hq]
    rw [integral_const_mul, ← sin4_den hn hq hne, intervalIntegral.integral_of_le Real.pi_pos.le, integral_Ioc_eq_integral_Ioo]
  · refine (Continuous.integrableOn_Icc ?_).mono_set Ioo_subset_Icc_self
    have h3 : Continuous fun q : ℝ => (q ^ 2 + M)⁻¹ := Continuous.inv₀ (by fun_prop) fun q => by positivity
    have h4 := continuousOn_angle hn
    fun_prop

/-! ### Radial integral -/

/-- The part of the radial integral that does not depend on the cutoff. -/
noncomputable def phi (s M : ℝ) : ℝ :=
  3 / s * (s - M * (Real.log (s + M) - Real.log M)) - 1 / s ^ 2 * (s ^ 2 / 2 - M * s + M ^ 2 * (Real.log (s + M) - Real.log M))
    - 3 * Real.log (s + M) + s / M * (Real.log s - Real.log (s + M))

theorem radial {a M R : ℝ} (ha : 0 < a) (hM : 0 < M) (hR : a < R) :
    ∫ q in Ioo 0 R, q ^ 3 * ((q ^ 2 + M)⁻¹ * angle a q) =
      π / 16 * (phi (a ^ 2) M + (3 * Real.log (R ^ 2 + M) - a ^ 2 / M * (Real.log (R ^ 2) - Real.log (R ^ 2 + M)))) := by
  have hc : Continuous fun q : ℝ => q ^ 3 * ((q ^ 2 + M)⁻¹ * angle a q) := by
    have h3 : Continuous fun q : ℝ => (q ^ 2 + M)⁻¹ := Continuous.inv₀ (by fun_prop) fun q => by positivity
    have h4 := continuousOn_angle ha
    fun_prop
  rw [← integral_Ioc_eq_integral_Ioo, ← intervalIntegral.integral_of_le (ha.trans hR).le,
    ← intervalIntegral.integral_add_adjacent_intervals (hc.intervalIntegrable 0 a) (hc.intervalIntegrable a R)]
  have lnd : ∀ q : ℝ, HasDerivAt (fun q : ℝ => Real.log (q ^ 2 + M)) (2 * q / (q ^ 2 + M)) q := fun q => by
    have := ((hasDerivAt_pow 2 q).add_const M).log (by positivity)
    simpa using this
  have i1 : ∫ q in (0 : ℝ)..a, q ^ 3 * ((q ^ 2 + M)⁻¹ * angle a q) =
      ∫ q in (0 : ℝ)..a, q ^ 3 * ((q ^ 2 + M)⁻¹ * (π / 8 * (3 - q ^ 2 / a ^ 2) / a ^ 2)) := by
    refine intervalIntegral.integral_congr fun q hq => ?_
    rw [uIcc_of_le ha.le] at hq
    simp only [angle, if_pos hq.2]
  have i2 : ∫ q in a..R, q ^ 3 * ((q ^ 2 + M)⁻¹ * angle a q) =
      ∫ q in a..R, q ^ 3 * ((q ^ 2 + M)⁻¹ * (π / 8 * (3 - a ^ 2 / q ^ 2) / q ^ 2)) := by
    refine intervalIntegral.integral_congr fun q hq => ?_
    rw [uIcc_of_le hR.le] at hq
    rcases hq.1.eq_or_lt with rfl | h
    · simp [angle]
    · simp only [angle, if_neg (not_le.2 h)]
  have d1 : ∀ q : ℝ, HasDerivAt (fun q : ℝ => π / 16 * (3 / a ^ 2 * (q ^ 2 - M * Real.log (q ^ 2 + M)) - 1 / a ^ 4 * ((q ^ 4) / 2 - M * q ^ 2 + M ^ 2 * Real.log (q ^ 2 + M))))
      (q ^ 3 * ((q ^ 2 + M)⁻¹ * (π / 8 * (3 - q ^ 2 / a ^ 2) / a ^ 2))) q := fun q => by
    have h1 : HasDerivAt (fun q : ℝ => q ^ 2) (2 * q) q := by simpa using hasDerivAt_pow 2 q
    have h2 : HasDerivAt (fun q : ℝ => q ^ 4) (4 * q ^ 3) q := by simpa using hasDerivAt_pow 4 q
    refine ((((h1.sub ((lnd q).const_mul M)).const_mul (3 / a ^ 2)).sub
      ((((h2.div_const 2).sub (h1.const_mul M)).add ((lnd q).const_mul (M ^ 2))).const_mul (1 / a ^ 4))).const_mul (π / 16)).congr_deriv ?_
    have : q ^ 2 + M ≠ 0 := by positivity
    field_simp
    ring
  have d2 : ∀ q : ℝ, 0 < q → HasDerivAt (fun q : ℝ => π / 16 * (3 * Real.log (q ^ 2 + M) - a ^ 2 / M * (Real.log (q ^ 2) - Real.log (q ^ 2 + M))))
      (q ^ 3 * ((q ^ 2 + M)⁻¹ * (π / 8 * (3 - a ^ 2 / q ^ 2) / q ^ 2))) q := fun q hq => by
    have h1 : HasDerivAt (fun q : ℝ => Real.log (q ^ 2)) (2 * q / q ^ 2) q := by
      have := (hasDerivAt_pow 2 q).log (by positivity)
      simpa using this
    refine ((((lnd q).const_mul 3).sub ((h1.sub (lnd q)).const_mul (a ^ 2 / M))).const_mul (π / 16)).congr_deriv ?_
    have : q ^ 2 + M ≠ 0 := by positivity
    field_simp
    ring
  have n1 : ∀ q : ℝ, q ^ 2 + M ≠ 0 := fun q => by positivity
  rw [i1, i2, intervalIntegral.integral_eq_sub_of_hasDerivAt (fun q _ => d1 q), intervalIntegral.integral_eq_sub_of_hasDerivAt (fun q hq => d2 q ?_)]
  · simp only [phi]
    norm_num
    field_simp
    ring
  · refine ContinuousOn.intervalIntegrable fun q hq => ?_
    rw [uIcc_of_le hR.le] at hq
    have h0 : q ≠ 0 := (lt_of_lt_of_le ha hq.1).ne'
    have := n1 q
    have h5 : q ^ 2 ≠ 0 := pow_ne_zero _ h0
    fun_prop (disch := assumption)
  · rw [uIcc_of_le hR.le] at hq
    exact lt_of_lt_of_le ha hq.1
  · refine Continuous.intervalIntegrable ?_ _ _
    have h3 : Continuous fun q : ℝ => (q ^ 2 + M)⁻¹ := Continuous.inv₀ (by fun_prop) n1
    fun_prop

end Qcd.Hyper
