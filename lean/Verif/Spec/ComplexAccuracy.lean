import Verif.Spec.VacuumAccuracy
import Verif.Model.ComplexVacuum

/-! # Specification: the accuracy of the vacuum functions of complex arguments

The scales are those of real arguments, with the norms of the numbers in place of their absolute values. -/

namespace Qcd.Spec

/-- The parts of `a` are real numbers, and the complex number they form is at most `e` away from `z`. -/
def NearC (a : CFl binary64) (z : ℂ) (e : ℝ) : Prop := ∃ v : ℂ, Is a.re v.re ∧ Is a.im v.im ∧ ‖v - z‖ ≤ e

/-- `x` is the complex number `s`, the square of a momentum in units of the mass, at an angle of at most 135 degrees from the positive axis, of norm
between `10^-6` and `10^6`. The cut is the negative axis, at 180 degrees. -/
structure Sector (x : CFl binary64) (s : ℂ) : Prop where
  re : Is x.re s.re
  im : Is x.im s.im
  angle : 0 ≤ s.re + |s.im|
  lo : 1 / 10 ^ 6 ≤ ‖s‖
  hi : ‖s‖ ≤ 10 ^ 6

/-- The real part of the complex result `a` and the real result `b` are at most `e` apart, and the imaginary part of `a` is exactly zero. -/
def Agree (a : CFl binary64) (b : Fl binary64) (e : ℝ) : Prop := ∃ v w : ℝ, Is a.re v ∧ Is a.im 0 ∧ Is b w ∧ |v - w| ≤ e

/-- `a` and `b` are finite numbers, and exactly conjugate to each other. -/
def Conjugate (a b : CFl binary64) : Prop := ∃ v : ℂ, Is a.re v.re ∧ Is a.im v.im ∧ Is b.re v.re ∧ Is b.im (-v.im)

/-- The norm of the logarithm, and the loss of digits of its argument. -/
noncomputable def logScale (q : ℝ) (z : ℂ) : ℝ := ‖Complex.log z‖ + q

noncomputable def ghostScaleC (s : ℂ) : ℝ :=
  ((1 + ‖s‖) ^ 2 * (2 / ‖s‖ + 1 / ‖s‖ ^ 2) * logScale 3 (1 + s) + 2 * ‖s‖ * logScale 1 s + 1 / ‖s‖ + 2) / 12

/-- The loss of digits of the difference `a - 1`, `a` the root of `1 + 4 / s`. -/
noncomputable def rootLoss (s : ℂ) : ℝ := (root ‖s‖ + 1) / (root ‖s‖ - 1)

noncomputable def gluonScaleC (s : ℂ) : ℝ :=
  ((3 * ‖s‖ ^ 2 + 34 * ‖s‖ + 28 + 24 / ‖s‖) * root ‖s‖ * (2 * logScale (rootLoss s) ((csqrt (1 + 4 / s) - 1) / 2) + logScale 1 s)
    + 2 * (1 + ‖s‖) ^ 2 * (20 / ‖s‖ + 3 + 11 / ‖s‖ ^ 2 + 2 / ‖s‖ ^ 3) * logScale 3 (1 + s) + (3 * ‖s‖ ^ 2 + 2) * logScale 1 s
    + (‖s‖ + 4) * (‖s‖ + 20 + 12 / ‖s‖) + 2 * (1 + ‖s‖) ^ 2 * (10 / ‖s‖ + 1 + 1 / ‖s‖ ^ 2) + (2 / ‖s‖ ^ 2 + 2 + ‖s‖ ^ 2)) / 72 + 5 / (8 * ‖s‖)

noncomputable def gluonGaugeScaleC (s : ℂ) : ℝ :=
  1 / (4 * ‖s‖) + (2 * ‖s‖ * logScale 1 s + 2 * (1 / ‖s‖ ^ 2 + 1 / ‖s‖) * (1 / ‖s‖ + ‖s‖ ^ 2) * logScale 3 (1 + s) + 3 + 3 / ‖s‖ + 2 / ‖s‖ ^ 2) / 12

noncomputable def quarkScaleC (s : ℂ) : ℝ :=
  4 / 9 * ((1 / ‖s‖ + 1 / 2) * root ‖s‖ * logScale (2 * rootLoss s) ((csqrt (1 + 4 / s) - 1) / (csqrt (1 + 4 / s) + 1)) + 2 / ‖s‖ + 5 / 6)

noncomputable def crossedScaleC (s : ℂ) : ℝ :=
  4 / 9 * (4 / ‖s‖ + 1 / 6 + 2 * (1 / ‖s‖ + 1 / 2 + 8 / ‖s‖ ^ 2) / root ‖s‖ *
    logScale (2 * rootLoss s) ((csqrt (1 + 4 / s) - 1) / (csqrt (1 + 4 / s) + 1)))

end Qcd.Spec
