import Mathlib.MeasureTheory.Integral.Bochner.Basic
import Mathlib.MeasureTheory.Constructions.BorelSpace.Complex
import Mathlib.MeasureTheory.Measure.Lebesgue.Basic
import Verif.Spec.Diagrams

/-! # Specification: thermal part of a diagram in the imaginary-time formalism

At temperature `T = 1/β` the energy of a bosonic loop momentum takes the values `2πnT`, `n` an integer, and the integral over it is
replaced by `T ∑ₙ`. The thermal part of a diagram is what this changes: the sum at temperature `T` minus the integral at zero
temperature, integrated over the spatial momentum. -/

namespace Qcd.Spec
open MeasureTheory

/-- Four-momentum of energy `q₀` and spatial momentum `v`. -/
def fourMomentum (q0 : ℂ) (v : ℝ × ℝ × ℝ) : Vec := ![q0, v.1, v.2.1, v.2.2]

/-- `T ∑ₙ f(2πnT) - ∫ dw/(2π) f(w)`. -/
noncomputable def sumMinusIntegral (f : ℂ → ℂ) (beta : ℝ) : ℂ :=
  1 / beta * ∑' n : ℤ, f (2 * Real.pi * n / beta) - 1 / (2 * Real.pi) * ∫ w : ℝ, f w

/-- `x = T ∑ₙ ∫ d³q/(2π)³ F - ∫ d⁴q/(2π)⁴ F`: for almost every spatial momentum the sum and the integral over the energy converge
absolutely, and so does the integral of their difference over the spatial momentum. -/
structure IsThermalDiagram (F : Vec → ℂ) (beta : ℝ) (x : ℂ) : Prop where
  converges : ∀ᵐ v : ℝ × ℝ × ℝ, (Summable fun n : ℤ => F (fourMomentum (2 * Real.pi * n / beta) v)) ∧
    Integrable fun w : ℝ => F (fourMomentum w v)
  integrable : Integrable fun v => sumMinusIntegral (fun q0 => F (fourMomentum q0 v)) beta
  value : x = 1 / (2 * Real.pi) ^ 3 * ∫ v, sumMinusIntegral (fun q0 => F (fourMomentum q0 v)) beta

/-- `f`, integrated from zero to infinity, gives the thermal part of `F`. -/
def IsThermalIntegrand (F : Vec → ℂ) (beta : ℝ) (f : ℝ → ℂ) : Prop :=
  IntegrableOn f (Set.Ioi 0) ∧ IsThermalDiagram F beta (∫ q in Set.Ioi (0 : ℝ), f q)

/-- The two-propagator loop `N(Q) / ((Q² + m₁²) ((P+Q)² + m₂²))`. -/
noncomputable def twoPropagators (N : Vec → ℂ) (P : Vec) (m1 m2 : ℝ) (Q : Vec) : ℂ :=
  N Q / ((msq Q + (m1 : ℂ) ^ 2) * (msq (P + Q) + (m2 : ℂ) ^ 2))

/-- The tadpole `1 / (Q² + m²)`. -/
noncomputable def onePropagator (m : ℝ) (Q : Vec) : ℂ := 1 / (msq Q + (m : ℂ) ^ 2)

/-- `(e·Q)²` averaged over the polarisations `e`. -/
noncomputable def projected (pol : List Vec) (Q : Vec) : ℂ := average pol fun e => (dotProduct e Q) ^ 2

end Qcd.Spec
