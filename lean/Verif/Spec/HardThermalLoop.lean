import Mathlib.Analysis.SpecialFunctions.Complex.Log
import Mathlib.Analysis.Real.Pi.Bounds

/-! # Hard thermal loops

The photon polarization at temperatures far above all external scales (Kapusta and Gale, *Finite-Temperature Field Theory*), as in
examples/qed_htl_limit.rs l.13-23: `k0 = iω` is the continued energy. `t2` stands for the square of the temperature, or
`T² + 3μ²/π²` at chemical potential `μ`. -/

namespace Spec
open Complex

/-- Longitudinal polarization divided by `e²`. -/
noncomputable def htl_l (om p t2 : ℝ) : ℂ :=
  -((I * om) ^ 2 - (p : ℂ) ^ 2) * (t2 / 3) / (p : ℂ) ^ 2 * (1 - I * om / (2 * p) * log ((I * om + p) / (I * om - p)))

/-- Transverse polarization divided by `e²`. -/
noncomputable def htl_t (om p t2 : ℝ) : ℂ := t2 / 6 - htl_l om p t2 / 2

/-- Both at zero momentum: the square of the plasma frequency. -/
noncomputable def htl_plasma (t2 : ℝ) : ℂ := t2 / 9

end Spec
