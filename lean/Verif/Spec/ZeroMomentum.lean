import Mathlib.Analysis.Complex.Basic

/-! # Specification: when the loop integrand at vanishing momentum is regular -/

namespace Qcd.Spec

/-- At vanishing momentum the two propagators of a loop with frequency `w`, energies `e1` and `e2`, and difference of the masses
squared `d = m₂² - m₁²`, one of them on shell, have the denominators `w² ± 2 i w e1 + d` and `w² ± 2 i w e2 - d`.
None of them vanishes. -/
structure RestRegular (w e1 e2 d : ℂ) : Prop where
  frequency : w ≠ 0
  first : w ^ 2 + 2 * Complex.I * w * e1 + d ≠ 0
  first_opp : w ^ 2 - 2 * Complex.I * w * e1 + d ≠ 0
  second : w ^ 2 + 2 * Complex.I * w * e2 - d ≠ 0
  second_opp : w ^ 2 - 2 * Complex.I * w * e2 - d ≠ 0

end Qcd.Spec
