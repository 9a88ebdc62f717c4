import Verif.Spec.Floats
import Verif.Model.Binary64

/-! # Specification: two values of an integrand in floating-point arithmetic -/

namespace Qcd.Spec

/-- The first number is computed at the larger temperature: none of the two is NaN or negative and the second is not larger. Both may be infinite. -/
def Decreasing (a b : Fl binary64) : Prop := ∃ v w : EReal, IsE a v ∧ IsE b w ∧ 0 ≤ w ∧ w ≤ v

/-- None of the two numbers is NaN or positive and the second is not smaller. Both may be infinite. -/
def Increasing (a b : Fl binary64) : Prop := ∃ v w : EReal, IsE a v ∧ IsE b w ∧ w ≤ 0 ∧ v ≤ w

end Qcd.Spec
