import Mathlib.Analysis.Calculus.Deriv.Basic
import Mathlib.Analysis.Complex.Basic
import Mathlib.MeasureTheory.Integral.Bochner.Set
import Mathlib.MeasureTheory.Measure.Lebesgue.Basic

/-! # Specification: integrands of mass derivatives

The library evaluates the derivative of a momentum integral `∫₀^∞ f(q, M) dq` with respect to the mass squared `M` by
integrating another integrand `d(q)`, which need not be `∂f/∂M` point by point: it may differ from it by the derivative
with respect to `q` of a function that vanishes at both ends of the integration range. -/

namespace Qcd.Spec
open Filter Topology MeasureTheory

/-- `d` is an integrand for the derivative of `∫₀^∞ f(q, M) dq` with respect to `M`, at `M`. -/
def IsMassDerivative (f : ℝ → ℝ → ℂ) (d : ℝ → ℂ) (M : ℝ) : Prop :=
  ∃ f' S : ℝ → ℂ,
    (∀ q, 0 < q → HasDerivAt (fun M => f q M) (f' q) M) ∧
    (∀ q, 0 < q → HasDerivAt S (f' q - d q) q) ∧
    Tendsto S (𝓝[>] 0) (𝓝 0) ∧ Tendsto S atTop (𝓝 0)

/-- `∫₀^∞ f(q, M) dq` and `∫₀^∞ d(q) dq` exist, and the second is the derivative of the first with respect to `M`, at `M`. -/
def IsIntegralDerivative (f : ℝ → ℝ → ℂ) (d : ℝ → ℂ) (M : ℝ) : Prop :=
  (∀ᶠ M' in 𝓝 M, IntegrableOn (fun q => f q M') (Set.Ioi 0)) ∧ IntegrableOn d (Set.Ioi 0) ∧
    HasDerivAt (fun M' => ∫ q in Set.Ioi (0 : ℝ), f q M') (∫ q in Set.Ioi (0 : ℝ), d q) M

end Qcd.Spec
