import Mathlib.Data.Complex.Basic

/-! # Specification vocabulary for the thermal integrands -/

namespace Qcd

/-- The frequency is off the imaginary axis (in particular nonzero) and within the strip
`|Im ω| < E` around the real axis. Every real nonzero frequency qualifies for every `E > 0`. -/
def InStrip (om : ℂ) (en : ℝ) : Prop := om.re ≠ 0 ∧ |om.im| < en

end Qcd
