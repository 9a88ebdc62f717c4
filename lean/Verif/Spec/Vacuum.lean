import Mathlib.MeasureTheory.Measure.Haar.InnerProductSpace
import Verif.Spec.Matsubara

/-! # Specification: vacuum diagrams with a cutoff

The loop momentum is integrated over the ball of radius `Λ` in four dimensions. The combination of diagrams that is considered must
have a limit when the cutoff is removed: divergences are to be subtracted. -/

namespace Qcd.Spec
open MeasureTheory Filter Topology

/-- Real four-momentum. -/
abbrev Momentum := EuclideanSpace ℝ (Fin 4)

/-- The same as a vector with complex components. -/
def vec (P : Momentum) : Vec := fun i => (P i : ℂ)

/-- `∫ d⁴Q/(2π)⁴ F(Q)` over the ball of radius `Λ`. -/
noncomputable def cutoffIntegral (F : Vec → ℂ) (cutoff : ℝ) : ℂ :=
  1 / (2 * Real.pi) ^ 4 * ∫ Q in Metric.ball (0 : Momentum) cutoff, F (vec Q)

/-- `x = ∫ d⁴Q/(2π)⁴ F(Q)`: the integral converges absolutely over every ball, and tends to `x` when the cutoff is removed. -/
structure IsVacuumDiagram (F : Vec → ℂ) (x : ℂ) : Prop where
  converges : ∀ cutoff : ℝ, IntegrableOn (fun Q => F (vec Q)) (Metric.ball (0 : Momentum) cutoff)
  limit : Tendsto (cutoffIntegral F) atTop (𝓝 x)

/-- `D M` is the value of the diagram `F M`, for every positive mass squared `M`. -/
def IsVacuumFamily (F : ℝ → Vec → ℂ) (D : ℝ → ℂ) : Prop := ∀ M, 0 < M → IsVacuumDiagram (F M) (D M)

end Qcd.Spec
