import Verif.Spec.VacuumAccuracy

/-! # Specification: the root finder in floating-point arithmetic -/

namespace Qcd.Spec

/-- An infinity or NaN. -/
def NotFinite {r : Rounding} (a : Fl r) : Prop := ∀ x : ℝ, ¬ Is a x

/-- A function that has no finite value at infinity and returns NaN for NaN. -/
structure Strict {r : Rounding} (f : Fl r → Fl r) : Prop where
  inf : ∀ a, NotFinite a → NotFinite (f a)
  nan : f Fl.nan = Fl.nan

/-- The zero of the line through `(z0, f0)` and `(z1, f1)`. -/
noncomputable def secantPoint (z0 z1 f0 f1 : ℝ) : ℝ := z1 - f1 * (z1 - z0) / (f1 - f0)

/-- The size of the terms of the formula `(z0 f1 - z1 f0) / (f1 - f0)`. -/
noncomputable def secantScale (z0 z1 f0 f1 : ℝ) : ℝ := (|z0 * f1| + |z1 * f0|) / |f1 - f0|

/-- Between `10^-60` and `10^60` in absolute value. -/
def Middle (x : ℝ) : Prop := 1 / 10 ^ 60 ≤ |x| ∧ |x| ≤ 10 ^ 60

end Qcd.Spec
