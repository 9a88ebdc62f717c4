import Verif.Spec.FinitePart

/-! # Specification: one-loop diagrams in covariant gauges

The gluon propagator is `t(Q)/(Q² + M) + ξ ℓ(Q)/Q²`: the longitudinal part is massless, and the two-gluon vertex `M t(Q)` is inserted in
the transverse part only. The vertices are the ones of the Landau gauge, `ξ = 0`. -/

namespace Qcd.Spec
open Matrix

/-- Longitudinal projector `ℓ_{jk}(Q) = Q_j Q_k / Q²`. -/
noncomputable def longProjector (Q : Vec) : Matrix (Fin 4) (Fin 4) ℂ := (msq Q)⁻¹ • vecMulVec Q Q

/-- The gluon propagator in the gauge `ξ`. -/
noncomputable def covariantPropagator (xi : ℝ) (M : ℂ) (Q : Vec) : Matrix (Fin 4) (Fin 4) ℂ :=
  (msq Q + M)⁻¹ • projector Q + ((xi : ℂ) * (msq Q)⁻¹) • longProjector Q

/-- Gluon loop. -/
noncomputable def covariantLoop (xi : ℝ) (e P : Vec) (M : ℂ) (Q : Vec) : ℂ :=
  1 / 2 * trace ((threeGluonAt e P Q (-(P + Q)))ᵀ * covariantPropagator xi M Q * threeGluonAt e P Q (-(P + Q)) * covariantPropagator xi M (P + Q))

/-- Tadpole. -/
noncomputable def covariantTadpole (xi : ℝ) (e : Vec) (M : ℂ) (Q : Vec) : ℂ :=
  -(∑ i, ∑ j, ∑ k, ∑ l, e i * e j * (delta i j * delta k l - (delta i l * delta j k + delta i k * delta j l) / 2) * covariantPropagator xi M Q k l)

/-- Ghost self-energy. -/
noncomputable def covariantGhost (xi : ℝ) (P : Vec) (M : ℂ) (Q : Vec) : ℂ :=
  -(P ⬝ᵥ (covariantPropagator xi M Q *ᵥ (P + Q))) / msq (P + Q)

/-- `x` is the finite part of the gluon self-energy in the gauge `ξ`: see `IsVacuumPolarization`. -/
def IsCovariantPolarization (xi : ℝ) (pol : List Vec) (P : Vec) (M : ℝ) (x : ℂ) : Prop :=
  ∃ (D E : ℝ → ℂ) (g h t : ℂ),
    IsFiniteFamily (fun M Q => average pol fun e => covariantLoop xi e P M Q) D ∧
    IsFinitePart (fun Q => average pol fun e => ghostLoop e P Q) h ∧
    IsFiniteFamily (fun M Q => average pol fun e => covariantTadpole xi e M Q) E ∧
    HasOneInsertion D M g ∧ HasTwoInsertions E M t ∧ x = g + h + t

/-- `x` is the finite part of the ghost self-energy in the gauge `ξ`, with at most one insertion. -/
def IsCovariantGhost (xi : ℝ) (P : Vec) (M : ℝ) (x : ℂ) : Prop :=
  ∃ D : ℝ → ℂ, IsFiniteFamily (fun M Q => covariantGhost xi P M Q) D ∧ HasOneInsertion D M x

end Qcd.Spec
