import Mathlib.Analysis.Complex.Basic
import Mathlib.Analysis.Calculus.FDeriv.Basic

/-! # Specification: analytic structure of a function of a complex Euclidean frequency

The Matsubara frequency is `om`, the energy on the real-time axis is `I * om`: the cut of every function of the
frequency lies on the imaginary axis, the two half planes `0 < Re om` and `Re om < 0` are the retarded and the
advanced sheet. -/

namespace Qcd.Spec
open scoped ComplexConjugate

/-- Values do not depend on the sign of the frequency, and conjugating the frequency conjugates the value
off the imaginary axis. -/
structure Symmetric (F : ℂ → ℂ) : Prop where
  even : ∀ om, F (-om) = F om
  reflects : ∀ om : ℂ, om.re ≠ 0 → F (conj om) = conj (F om)

/-- A symmetric function without any singularity off the imaginary axis. -/
structure Analytic (F : ℂ → ℂ) : Prop extends Symmetric F where
  holomorphic : ∀ om : ℂ, om.re ≠ 0 → DifferentiableAt ℂ F om

end Qcd.Spec
