import Verif.Model.Floats

/-! # Specification: floating-point numbers -/

namespace Qcd.Spec

/-- The floating-point number `a` is the real number `x` (one of the two zeros for `x = 0`). -/
def Is {r : Rounding} (a : Fl r) (x : ℝ) : Prop := a.value = some (x : EReal)

/-- The floating-point number `a` is `x`, possibly an infinity. -/
def IsE {r : Rounding} (a : Fl r) (x : EReal) : Prop := a.value = some x

def IsNaN {r : Rounding} (a : Fl r) : Prop := a = Fl.nan

/-- Finite numbers of the type `f64`: at most 53 bits times a power of two. -/
def Binary64 (x : ℝ) : Prop := ∃ k e : ℤ, |k| < 2 ^ 53 ∧ -1074 ≤ e ∧ e ≤ 971 ∧ x = k * 2 ^ e

/-- A bound for the numbers of the theorems on accuracy; its fourth power is far from overflow. -/
noncomputable def big : ℝ := 2 ^ 250

/-- Zero, or neither very small nor very large. -/
def Moderate (x : ℝ) : Prop := x = 0 ∨ (big⁻¹ ≤ |x| ∧ |x| ≤ big)

/-- The relative error of an operation is at most `u`, up to overflow and underflow; for the exponential, for moderate arguments. -/
structure Accurate (r : Rounding) (u : ℝ) : Prop where
  rnd : ∀ x : ℝ, (big ^ 4)⁻¹ ≤ |x| → |x| ≤ big ^ 4 → ∃ d : ℝ, |d| ≤ u ∧ r.rnd x = ((x * (1 + d) : ℝ) : EReal)
  exp : ∀ x : ℝ, |x| ≤ 401 → ∃ d : ℝ, |d| ≤ u ∧ r.exp x = ((Real.exp x * (1 + d) : ℝ) : EReal)

/-- The factor of the error of the Fermi distribution: `u` is the relative error of an operation, `x` the exact argument of the
exponential. -/
noncomputable def fermiFactor (u x : ℝ) : ℝ := (1 + u) / (1 - u) ^ 2 * Real.exp (((1 + u) ^ 2 - 1) * |x|)

/-- The relative error of `exp x - 1`, before the last two operations: the subtraction cancels digits when `x` is small. -/
noncomputable def boseLoss (u x : ℝ) : ℝ := Real.exp x * (Real.exp (((1 + u) ^ 2 - 1) * x) * (1 + u) - 1) / (Real.exp x - 1)

/-- Arithmetic without rounding. -/
noncomputable def exactRounding : Rounding where
  rnd x := x
  exp x := Real.exp x
  ln x := Real.log x
  mono := fun _ _ h => EReal.coe_le_coe_iff.2 h
  zero := rfl
  one := rfl
  two := rfl
  exp_mono := fun _ _ h => EReal.coe_le_coe_iff.2 (Real.exp_le_exp.2 h)
  exp_nonneg := fun x => by exact_mod_cast (Real.exp_pos x).le
  exp_zero := by simp

end Qcd.Spec
