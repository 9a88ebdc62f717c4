import Verif.Spec.Floats
import Verif.Model.ComplexFloats
import Mathlib.Data.Complex.Basic

/-! # Specification: residues in floating-point arithmetic -/

namespace Qcd.Spec

/-- A number of usual size. -/
def Usual (x : ℝ) : Prop := 1 / 10 ^ 20 ≤ |x| ∧ |x| ≤ 10 ^ 20

/-- Zero or of usual size. -/
def UsualOrZero (x : ℝ) : Prop := x = 0 ∨ Usual x

/-- The complex floating-point number `a` is `w`. -/
def IsC {r : Rounding} (a : CFl r) (w : ℂ) : Prop := Is a.re w.re ∧ Is a.im w.im

/-- `a` is `x` up to the relative error `e`. -/
def Within {r : Rounding} (e : ℝ) (a : Fl r) (x : ℝ) : Prop := ∃ v : ℝ, Is a v ∧ |v - x| ≤ e * |x|

/-- Both components of `a` are those of `w` up to the relative error `e`. -/
def WithinC {r : Rounding} (e : ℝ) (a : CFl r) (w : ℂ) : Prop := Within e a.re w.re ∧ Within e a.im w.im

/-- Two points on opposite sides of a pole: neither the real nor the imaginary parts of the values have the same sign. -/
def Opposite (v w : ℂ) : Prop := v.re * w.re ≤ 0 ∧ v.im * w.im ≤ 0

end Qcd.Spec
