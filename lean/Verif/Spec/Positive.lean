import Mathlib.Data.Complex.Basic

/-! # Specification for C117: a complex number that is a positive real number -/

namespace Qcd.Spec

/-- `z` is real and positive. -/
def Positive (z : ℂ) : Prop := ∃ r : ℝ, 0 < r ∧ z = (r : ℂ)

end Qcd.Spec
