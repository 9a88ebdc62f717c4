import Verif.Spec.Matsubara

/-! # Specification: insertions of the two-gluon vertex on integrated diagrams

A diagram with massive gluon lines is a function `D` of the mass squared `M` of the gluon. Insertions of the vertex `M t(Q)` on its
lines are obtained with derivatives of `D`. -/

namespace Qcd.Spec

/-- `D M` is the thermal part of the diagram `F M`, for every positive mass squared `M`. -/
def IsThermalFamily (F : ℝ → Vec → ℂ) (beta : ℝ) (D : ℝ → ℂ) : Prop := ∀ M, 0 < M → IsThermalDiagram (F M) beta (D M)

/-- `D` is differentiable at `M` and `x = (1 - M ∂/∂M) D`. -/
def HasOneInsertion (D : ℝ → ℂ) (M : ℝ) (x : ℂ) : Prop := ∃ D' : ℂ, HasDerivAt D D' M ∧ x = D M - M * D'

/-- `D` is differentiable, twice at `M`, and `x = (1 - M ∂/∂M + (M²/2) ∂²/∂M²) D`. -/
def HasTwoInsertions (D : ℝ → ℂ) (M : ℝ) (x : ℂ) : Prop :=
  ∃ (D' : ℝ → ℂ) (D'' : ℂ), (∀ M', 0 < M' → HasDerivAt D (D' M') M') ∧ HasDerivAt D' D'' M ∧ x = D M - M * D' M + M ^ 2 / 2 * D''

end Qcd.Spec
