import Verif.Spec.Floats
import Mathlib.Analysis.SpecialFunctions.Trigonometric.Basic

/-! # Specification: the charge density at finite temperature in floating-point arithmetic -/

namespace Qcd.Spec

/-- A point of the interval of integration which is not extremely close to zero: an adaptive method gets closer only after two hundred bisections. -/
def Inside {r : Rounding} (t : Fl r) : Prop := ∃ x : ℝ, Is t x ∧ 2 ^ (-200 : ℤ) ≤ x ∧ x ≤ 1

/-- The result of `integrate` depends only on the values of the function at such points. -/
def Looks {r : Rounding} (integrate : (Fl r → Fl r) → Fl r) : Prop :=
  ∀ f g : Fl r → Fl r, (∀ t, Inside t → f t = g t) → integrate f = integrate g

/-- The Fermi distribution. -/
noncomputable def occupation (e b y : ℝ) : ℝ := 1 / (Real.exp (b * (e - y)) + 1)

/-- Quarks minus antiquarks of momentum `q`, per momentum. -/
noncomputable def netDensity (nc q m b y : ℝ) : ℝ :=
  nc * q ^ 2 / Real.pi ^ 2 * (occupation (Real.sqrt (q ^ 2 + m ^ 2)) b y - occupation (Real.sqrt (q ^ 2 + m ^ 2)) b (-y))

/-- Quarks plus antiquarks of momentum `q`, per momentum. -/
noncomputable def totalDensity (nc q m b y : ℝ) : ℝ :=
  nc * q ^ 2 / Real.pi ^ 2 * (occupation (Real.sqrt (q ^ 2 + m ^ 2)) b y + occupation (Real.sqrt (q ^ 2 + m ^ 2)) b (-y))

end Qcd.Spec
