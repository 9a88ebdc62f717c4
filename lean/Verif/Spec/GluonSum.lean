import Verif.Spec.VacuumQuark
import Verif.Spec.FinitePart
import Verif.Spec.QuarkDiagram

/-! # Specification: the inverse dressing function of the gluon from the one-loop diagrams

`v` is the inverse dressing function of a gluon with momentum `P` and polarisations `pol`, if it is a constant `z` minus `16 π² / 3` times the
sum of the diagrams divided by the momentum squared. -/

namespace Qcd.Spec
open Matrix
open scoped Real

/-- Pure Yang-Mills theory at inverse temperature `beta`: finite part in vacuum plus thermal part. -/
def IsThermalGluon (pol : List Vec) (P : Vec) (beta M : ℝ) (z v : ℂ) : Prop :=
  ∃ x t : ℂ, IsVacuumPolarization pol P M x ∧ IsThermalPolarization pol P beta M t ∧ v = z - 16 * π ^ 2 / 3 * ((x + t) / msq P)

/-- Quantum chromodynamics with the quarks `qs` (number of flavours and mass) at inverse temperature `beta` and chemical potential `mu`. -/
def IsThermalQcdGluon (g : Fin 4 → Matrix (Fin 4) (Fin 4) ℂ) (nc : ℝ) (pol : List Vec) (P : Vec) (beta mu M : ℝ) (qs : List (ℕ × ℝ)) (z v : ℂ) : Prop :=
  ∃ (x t : ℂ) (ys us : List ℂ), IsVacuumPolarization pol P M x ∧ IsThermalPolarization pol P beta M t ∧
    List.Forall₂ (fun q y => IsVacuumQuarkLoop g nc pol P q.2 y) qs ys ∧
    List.Forall₂ (fun q u => IsThermalQuarkDiagram (fun Q => average pol fun e => quarkDiagram g nc e P q.2 Q) beta mu u) qs us ∧
    v = z - 16 * π ^ 2 / 3 * ((x + t + flavours qs ys + flavours qs us) / msq P)

/-- The same at zero temperature. -/
def IsDenseQcdGluon (g : Fin 4 → Matrix (Fin 4) (Fin 4) ℂ) (nc : ℝ) (pol : List Vec) (P : Vec) (mu M : ℝ) (qs : List (ℕ × ℝ)) (z v : ℂ) : Prop :=
  ∃ (x : ℂ) (ys us : List ℂ), IsVacuumPolarization pol P M x ∧
    List.Forall₂ (fun q y => IsVacuumQuarkLoop g nc pol P q.2 y) qs ys ∧
    List.Forall₂ (fun q u => IsDenseQuarkDiagram (fun Q => average pol fun e => quarkDiagram g nc e P q.2 Q) mu u) qs us ∧
    v = z - 16 * π ^ 2 / 3 * ((x + flavours qs ys + flavours qs us) / msq P)

end Qcd.Spec
