import Verif.Spec.Vacuum
import Verif.Spec.Insertions
import Mathlib.Analysis.SpecialFunctions.Log.Basic

/-! # Specification: finite part of a divergent vacuum diagram, gluon self-energy

Diagrams of the gluon self-energy diverge as the square of the cutoff and as its logarithm. Their finite part is what is left of the
integral over the ball of radius `Λ` when a multiple of `Λ²` and a multiple of `log Λ²` are subtracted. Nothing else can be hidden in
the subtraction: the two multiples, and the finite part, are determined by the diagram. -/

namespace Qcd.Spec
open MeasureTheory Filter Topology

/-- `x` is the finite part of `∫ d⁴Q/(2π)⁴ F(Q)`. -/
structure IsFinitePart (F : Vec → ℂ) (x : ℂ) : Prop where
  converges : ∀ cutoff : ℝ, IntegrableOn (fun Q => F (vec Q)) (Metric.ball (0 : Momentum) cutoff)
  limit : ∃ a b : ℂ, Tendsto (fun cutoff : ℝ => cutoffIntegral F cutoff - (a * (cutoff ^ 2 : ℝ) + b * (Real.log (cutoff ^ 2) : ℝ))) atTop (𝓝 x)

/-- `D M` is the finite part of the diagram `F M`, for every positive mass squared `M`. -/
def IsFiniteFamily (F : ℝ → Vec → ℂ) (D : ℝ → ℂ) : Prop := ∀ M, 0 < M → IsFinitePart (F M) (D M)

/-- `x` is the finite part of the gluon self-energy at the momentum `P`, averaged over the polarisations `pol`: gluon loop with at most
one insertion of the two-gluon vertex `M t(Q)`, ghost loop, tadpole with at most two insertions. -/
def IsVacuumPolarization (pol : List Vec) (P : Vec) (M : ℝ) (x : ℂ) : Prop :=
  ∃ (D E : ℝ → ℂ) (g h t : ℂ),
    IsFiniteFamily (fun M Q => average pol fun e => gluonLoop e P M Q) D ∧
    IsFinitePart (fun Q => average pol fun e => ghostLoop e P Q) h ∧
    IsFiniteFamily (fun M Q => average pol fun e => gluonTadpole e M Q) E ∧
    HasOneInsertion D M g ∧ HasTwoInsertions E M t ∧ x = g + h + t

/-- The same for the thermal part. -/
def IsThermalPolarization (pol : List Vec) (P : Vec) (beta M : ℝ) (x : ℂ) : Prop :=
  ∃ (D E : ℝ → ℂ) (g h t : ℂ),
    IsThermalFamily (fun M Q => average pol fun e => gluonLoop e P M Q) beta D ∧
    IsThermalDiagram (fun Q => average pol fun e => ghostLoop e P Q) beta h ∧
    IsThermalFamily (fun M Q => average pol fun e => gluonTadpole e M Q) beta E ∧
    HasOneInsertion D M g ∧ HasTwoInsertions E M t ∧ x = g + h + t

/-- Real polarisations for the momentum `P`: unit vectors orthogonal to it. -/
def Polarisations (P : Momentum) (l : List Momentum) : Prop := l ≠ [] ∧ ∀ e ∈ l, ‖e‖ = 1 ∧ inner ℝ e P = 0

end Qcd.Spec
