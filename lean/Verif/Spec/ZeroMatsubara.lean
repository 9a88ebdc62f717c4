import Mathlib.Data.Real.Basic

/-! # Specification: when the loop integrand at vanishing frequency is regular -/

namespace Qcd.Spec

/-- At vanishing frequency the on-shell denominators of a loop with spatial momentum `p`, loop momentum `q` and difference of
the masses squared `d = m₂² - m₁²` range over `p² ± d + 2 q p z`, `-1 ≤ z ≤ 1`. The momentum does not vanish and no endpoint of
these ranges is zero: the logarithms and poles of the integrated expressions are finite. (The denominators may vanish inside the
range; the integrands are then principal values.) -/
structure StaticRegular (q p d : ℝ) : Prop where
  momentum : p ≠ 0
  first_plus : p * p + d + q * 2 * p ≠ 0
  first_minus : p * p + d - q * 2 * p ≠ 0
  second_plus : p * p - d + q * 2 * p ≠ 0
  second_minus : p * p - d - q * 2 * p ≠ 0

end Qcd.Spec
