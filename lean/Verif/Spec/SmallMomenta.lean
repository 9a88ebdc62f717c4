import Verif.Spec.Floats
import Verif.Model.Binary64

/-! # Specification: floating-point numbers in an interval, very small momenta -/

namespace Qcd.Spec

/-- The floating-point number `a` is a real number between `lo` and `hi`. -/
def In (a : Fl binary64) (lo hi : ℝ) : Prop := ∃ v : ℝ, Is a v ∧ lo ≤ v ∧ v ≤ hi

/-- `x` is the number `s` of the type `f64`, the square of a momentum in units of the mass, and lies between `2^-200` and `2^-53`. -/
structure Tiny (x : Fl binary64) (s : ℝ) : Prop where
  is : Is x s
  num : Binary64 s
  lo : 2 ^ (-200 : ℤ) ≤ s
  hi : s ≤ 2 ^ (-53 : ℤ)

end Qcd.Spec
