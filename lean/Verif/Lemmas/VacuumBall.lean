import Verif.Lemmas.Hyperspherical
import Mathlib.MeasureTheory.Integral.Prod
import Mathlib.Analysis.InnerProductSpace.Projection.Reflection
import Mathlib.MeasureTheory.Integral.IntervalIntegral.Basic

/-! # Integrals over a ball in four dimensions -/

namespace Qcd.Hyper
open MeasureTheory Set
open scoped Real

theorem norm_axis (Q : E4) : ‖Q‖ ^ 2 = (axis Q).1 ^ 2 + (axis Q).2 ^ 2 := norm_sq_eq Q

theorem polar_sq (p : ℝ × ℝ) : (polar p).1 ^ 2 + (polar p).2 ^ 2 = p.1 ^ 2 := by
  simp only [polar]
  linear_combination p.1 ^ 2 * Real.sin_sq_add_cos_sq p.2

/-- Integral over a ball of a function with an axis of symmetry, positive, from its integrals over the angle. -/
theorem ball_axis {f : ℝ × ℝ → ℝ} (hf : Measurable f) (h0 : ∀ u, 0 ≤ f u) {a R : ℝ} {A : ℝ → ℝ}
    (hi : ∀ q, 0 < q → q ≠ a → IntegrableOn (fun t => Real.sin t ^ 2 * f (polar (q, t))) (Ioo 0 π))
    (hv : ∀ q, 0 < q → q ≠ a → ∫ t in Ioo 0 π, Real.sin t ^ 2 * f (polar (q, t)) = A q)
    (hA : IntegrableOn (fun q => q ^ 3 * A q) (Ioo 0 R)) :
    IntegrableOn (fun Q : E4 => f (axis Q)) (Metric.ball 0 R) ∧
      ∫ Q in Metric.ball (0 : E4) R, f (axis Q) = 4 * π * ∫ q in Ioo 0 R, q ^ 3 * A q := by
  rcases le_or_gt R 0 with hR | hR
  · simp [Metric.ball_eq_empty.2 hR, Ioo_eq_empty_of_le hR]
  set B : Set (ℝ × ℝ) := {u | u.1 ^ 2 + u.2 ^ 2 < R ^ 2} with hB
  have hBm : MeasurableSet B := measurableSet_lt (by fun_prop) measurable_const
  have e1 : (Metric.ball (0 : E4) R).indicator (fun Q : E4 => f (axis Q)) = fun Q => B.indicator f (axis Q) := by
    ext Q
    have : Q ∈ Metric.ball (0 : E4) R ↔ axis Q ∈ B := by
      rw [mem_ball_zero_iff, hB, mem_setOf_eq, ← norm_axis, sq_lt_sq₀ (norm_nonneg _) hR.le]
    simp only [indicator, this]
  have hm : Measurable (B.indicator f) := hf.indicator hBm
  have e2 : (Ioi (0 : ℝ) ×ˢ Ioo 0 π).indicator (fun p : ℝ × ℝ => 4 * π * p.1 ^ 3 * Real.sin p.2 ^ 2 * B.indicator f (polar p)) =
      (Ioo (0 : ℝ) R ×ˢ Ioo 0 π).indicator fun p : ℝ × ℝ => 4 * π * p.1 ^ 3 * (Real.sin p.2 ^ 2 * f (polar p)) := by
    ext p
    simp only [indicator, mem_prod, mem_Ioi, mem_Ioo, hB, mem_setOf_eq, polar_sq]
    by_cases h1 : 0 < p.1
    · by_cases h2 : p.1 < R
      · have : p.1 ^ 2 < R ^ 2 := (sq_lt_sq₀ h1.le hR.le).2 h2
        simp [h1, h2, this, mul_assoc]
      · have : ¬ p.1 ^ 2 < R ^ 2 := fun h => h2 ((sq_lt_sq₀ h1.le hR.le).1 h)
        simp [h2, this]
    · simp [h1]
  have m1 : MeasurableSet (Ioi (0 : ℝ) ×ˢ Ioo 0 π) := measurableSet_Ioi.prod measurableSet_Ioo
  have m2 : MeasurableSet (Ioo (0 : ℝ) R ×ˢ Ioo 0 π) := measurableSet_Ioo.prod measurableSet_Ioo
  have mm : Measurable fun p : ℝ × ℝ => 4 * π * p.1 ^ 3 * (Real.sin p.2 ^ 2 * f (polar p)) := by
    have := measurable_polar
    fun_prop
  have hne : ∀ᵐ q ∂(volume.restrict (Ioo 0 R)), 0 < q ∧ q ≠ a := by
    have h1 : ∀ᵐ q : ℝ ∂(volume.restrict (Ioo 0 R)), q ∈ Ioo 0 R := ae_restrict_mem measurableSet_Ioo
    have h2 : ∀ᵐ q : ℝ ∂(volume.restrict (Ioo 0 R)), q ≠ a := ae_restrict_of_ae (by simp [ae_iff, measure_singleton])
    filter_upwards [h1, h2] with q h3 h4 using ⟨h3.1, h4⟩
  have hp : IntegrableOn (fun p : ℝ × ℝ => 4 * π * p.1 ^ 3 * (Real.sin p.2 ^ 2 * f (polar p))) (Ioo (0 : ℝ) R ×ˢ Ioo 0 π) := by
    rw [IntegrableOn, Measure.volume_eq_prod, ← Measure.prod_restrict, integrable_prod_iff mm.aestronglyMeasurable]
    constructor
    · filter_upwards [hne] with q h
      exact (hi q h.1 h.2).const_mul _
    · refine (hA.const_mul (4 * π)).congr ?_
      filter_upwards [hne] with q h
      rw [← hv q h.1 h.2]
      have : ∀ t, ‖4 * π * q ^ 3 * (Real.sin t ^ 2 * f (polar (q, t)))‖ = 4 * π * q ^ 3 * (Real.sin t ^ 2 * f (polar (q, t))) := fun t => by
        have h3 := h0 (polar (q, t))
        have h4 := h.1
        exact Real.norm_of_nonneg (by positivity)
      simp only [this]
      rw [integral_const_mul]
      ring
  constructor
  · rw [← integrable_indicator_iff measurableSet_ball, e1, integrable_axis hm, ← integrable_indicator_iff m1, e2, integrable_indicator_iff m2]
    exact hp
  · rw [← integral_indicator measurableSet_ball, e1, integral_axis hm, ← integral_indicator m1, e2, integral_indicator m2]
    rw [IntegrableOn, Measure.volume_eq_prod, ← Measure.prod_restrict] at hp
    rw [Measure.volume_eq_prod, ← Measure.prod_restrict, integral_prod _ hp, ← integral_const_mul]
    refine integral_congr_ae ?_
    filter_upwards [hne] with q h
    rw [integral_const_mul, hv q h.1 h.2]
    ring

/-- The first axis. -/
noncomputable def e0 : E4 := EuclideanSpace.single 0 1

theorem norm_e0 : ‖e0‖ = 1 := by simp [e0]

/-- Rotation of the momentum on the first axis. -/
theorem exists_rotation (P : E4) : ∃ U : E4 ≃ₗᵢ[ℝ] E4, U (‖P‖ • e0) = P := by
  have h : ‖‖P‖ • e0‖ = ‖P‖ := by rw [norm_smul, norm_e0]; simp
  exact ⟨_, Submodule.reflection_sub h⟩

theorem ball_rotation (U : E4 ≃ₗᵢ[ℝ] E4) (f : E4 → ℝ) (R : ℝ) :
    (IntegrableOn f (Metric.ball 0 R) ↔ IntegrableOn (fun Q => f (U Q)) (Metric.ball 0 R)) ∧
      ∫ Q in Metric.ball (0 : E4) R, f Q = ∫ Q in Metric.ball (0 : E4) R, f (U Q) := by
  have hp : U ⁻¹' Metric.ball (0 : E4) R = Metric.ball 0 R := by
    ext Q
    simp
  have hm := U.measurePreserving
  have he : MeasurableEmbedding U := U.toHomeomorph.measurableEmbedding
  constructor
  · rw [← hm.integrableOn_comp_preimage he, hp]; rfl
  · rw [← hm.setIntegral_preimage_emb he, hp]

end Qcd.Hyper
