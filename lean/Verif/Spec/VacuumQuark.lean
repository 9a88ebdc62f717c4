import Verif.Spec.FinitePart
import Verif.Spec.QuarkDiagram

/-! # Specification: the quark loop of the gluon self-energy in vacuum

A cutoff on the loop momentum is not gauge invariant: it leaves a mass term, the value of the diagram at zero momentum, which is
subtracted. Nothing else is. -/

namespace Qcd.Spec
open Matrix

/-- `x` is the finite part of the quark loop at the momentum `P`, minus the finite part at zero momentum, averaged over the
polarisations `pol`. -/
def IsVacuumQuarkLoop (g : Fin 4 → Matrix (Fin 4) (Fin 4) ℂ) (nc : ℝ) (pol : List Vec) (P : Vec) (m : ℝ) (x : ℂ) : Prop :=
  ∃ x1 x0 : ℂ, IsFinitePart (fun Q => average pol fun e => quarkDiagram g nc e P m Q) x1 ∧
    IsFinitePart (fun Q => average pol fun e => quarkDiagram g nc e 0 m Q) x0 ∧ x = x1 - x0

/-- The same with at most one insertion of the mass of the quark in its lines. -/
def IsVacuumCrossedQuarkLoop (g : Fin 4 → Matrix (Fin 4) (Fin 4) ℂ) (nc : ℝ) (pol : List Vec) (P : Vec) (m : ℝ) (x : ℂ) : Prop :=
  ∃ D : ℝ → ℂ, (∀ m, 0 < m → IsVacuumQuarkLoop g nc pol P m (D m)) ∧ HasOneInsertion D m x

/-- The quark loop with exactly one insertion of the vertex `m`, on either line. -/
noncomputable def quarkDiagramInserted (g : Fin 4 → Matrix (Fin 4) (Fin 4) ℂ) (nc : ℝ) (e P : Vec) (m : ℝ) (Q : Vec) : ℂ :=
  1 / (2 * nc) * trace (slash g e * (quarkPropagator g m Q * ((m : ℂ) • 1) * quarkPropagator g m Q) * slash g e * quarkPropagator g m (P + Q))
  + 1 / (2 * nc) * trace (slash g e * quarkPropagator g m Q * slash g e * (quarkPropagator g m (P + Q) * ((m : ℂ) • 1) * quarkPropagator g m (P + Q)))

/-- The sum over the flavours: `qs` lists the numbers of flavours and the masses, `ys` the diagrams of one flavour. -/
noncomputable def flavours (qs : List (ℕ × ℝ)) (ys : List ℂ) : ℂ := (List.zipWith (fun q y => (q.1 : ℂ) * y) qs ys).sum

end Qcd.Spec
