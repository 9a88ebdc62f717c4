import Mathlib.LinearAlgebra.Matrix.NonsingularInverse
import Verif.Spec.Matsubara

/-! # Specification: the quark loop of the gluon polarisation, at finite temperature and density

Euclidean momenta; Dirac matrices with `{γ_i, γ_j} = 2 δ_ij`; quark propagator `1 / (i Q̸ + m)`, vertex `-i g γ`, one minus sign for
the closed loop and one half from the trace over colours. In units of `N g²`, as for the other diagrams, and for one flavour, this is
`1/(2N) tr[e̸ S(Q) e̸ S(P + Q)]`.

At temperature `T = 1/β` and chemical potential `μ` the energy of a quark takes the values `(2n+1)πT + iμ`. At zero temperature it is
integrated over the line of imaginary part `μ`. -/

namespace Qcd.Spec
open MeasureTheory Matrix

/-- Dirac matrices. -/
def IsClifford (g : Fin 4 → Matrix (Fin 4) (Fin 4) ℂ) : Prop := ∀ i j, g i * g j + g j * g i = if i = j then 2 else 0

/-- `Q̸`. -/
def slash (g : Fin 4 → Matrix (Fin 4) (Fin 4) ℂ) (Q : Vec) : Matrix (Fin 4) (Fin 4) ℂ := ∑ i, Q i • g i

/-- `S(Q) = 1 / (i Q̸ + m)`. -/
noncomputable def quarkPropagator (g : Fin 4 → Matrix (Fin 4) (Fin 4) ℂ) (m : ℝ) (Q : Vec) : Matrix (Fin 4) (Fin 4) ℂ :=
  (Complex.I • slash g Q + (m : ℂ) • (1 : Matrix (Fin 4) (Fin 4) ℂ))⁻¹

/-- The quark loop with external polarisation `e` and momentum `P`; `nc` is the number of colours. -/
noncomputable def quarkDiagram (g : Fin 4 → Matrix (Fin 4) (Fin 4) ℂ) (nc : ℝ) (e P : Vec) (m : ℝ) (Q : Vec) : ℂ :=
  1 / (2 * nc) * trace (slash g e * quarkPropagator g m Q * slash g e * quarkPropagator g m (P + Q))

/-! ### Thermal part -/

/-- `(2n+1)πT + iμ`. -/
noncomputable def quarkFrequency (beta mu : ℝ) (n : ℤ) : ℂ := (2 * n + 1) * Real.pi / beta + Complex.I * mu

/-- `T ∑ₙ f((2n+1)πT + iμ) - ∫ dw/(2π) f(w)`. -/
noncomputable def quarkSumMinusIntegral (f : ℂ → ℂ) (beta mu : ℝ) : ℂ :=
  1 / beta * ∑' n : ℤ, f (quarkFrequency beta mu n) - 1 / (2 * Real.pi) * ∫ w : ℝ, f w

/-- `x = T ∑ₙ ∫ d³q/(2π)³ F - ∫ d⁴q/(2π)⁴ F`, the sum over the frequencies of a quark: for almost every spatial momentum the sum and
the integral over the energy converge absolutely, and so does the integral of their difference over the spatial momentum. -/
structure IsThermalQuarkDiagram (F : Vec → ℂ) (beta mu : ℝ) (x : ℂ) : Prop where
  converges : ∀ᵐ v : ℝ × ℝ × ℝ, (Summable fun n : ℤ => F (fourMomentum (quarkFrequency beta mu n) v)) ∧
    Integrable fun w : ℝ => F (fourMomentum w v)
  integrable : Integrable fun v => quarkSumMinusIntegral (fun q0 => F (fourMomentum q0 v)) beta mu
  value : x = 1 / (2 * Real.pi) ^ 3 * ∫ v, quarkSumMinusIntegral (fun q0 => F (fourMomentum q0 v)) beta mu

/-- `∫ dw/(2π) f(w + iμ) - ∫ dw/(2π) f(w)`. -/
noncomputable def denseMinusVacuum (f : ℂ → ℂ) (mu : ℝ) : ℂ :=
  1 / (2 * Real.pi) * (∫ w : ℝ, f (w + Complex.I * mu)) - 1 / (2 * Real.pi) * ∫ w : ℝ, f w

/-- The same at zero temperature: `x = ∫ d³q/(2π)³ (∫ dw/(2π) F(w + iμ, q) - ∫ dw/(2π) F(w, q))`. -/
structure IsDenseQuarkDiagram (F : Vec → ℂ) (mu : ℝ) (x : ℂ) : Prop where
  converges : ∀ᵐ v : ℝ × ℝ × ℝ, (Integrable fun w : ℝ => F (fourMomentum (w + Complex.I * mu) v)) ∧
    Integrable fun w : ℝ => F (fourMomentum w v)
  integrable : Integrable fun v => denseMinusVacuum (fun q0 => F (fourMomentum q0 v)) mu
  value : x = 1 / (2 * Real.pi) ^ 3 * ∫ v, denseMinusVacuum (fun q0 => F (fourMomentum q0 v)) mu

end Qcd.Spec
