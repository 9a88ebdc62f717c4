import Verif.Spec.FloatRoot

/-! # Specification: accuracy of the charge density and of the chemical potential at zero temperature -/

namespace Qcd.Spec

/-- The density of quarks of mass `m` with `nc` colours at the chemical potential `mu`, above threshold. -/
noncomputable def fermiDensity (nc : ℕ) (m mu : ℝ) : ℝ := nc * SignType.sign mu * Real.sqrt (mu ^ 2 - m ^ 2) ^ 3 / (3 * Real.pi ^ 2)

/-- The chemical potential at which quarks of mass `m` with `nc` colours have the density `n`. -/
noncomputable def fermiPotential (nc : ℕ) (m n : ℝ) : ℝ := SignType.sign n * Real.sqrt (m ^ 2 + (3 * Real.pi ^ 2 * |n| / nc) ^ ((2 : ℝ) / 3))

/-- The loss of digits of the difference `mu^2 - m^2`. -/
noncomputable def thresholdLoss (m mu : ℝ) : ℝ := mu ^ 2 / (mu ^ 2 - m ^ 2)

/-- The function `powf` returns a number with a relative error of at most `2^-52` for a base between `10^-100` and `10^100` and an exponent between 0 and 1. -/
def PowAccurate (pow : Fl binary64 → Fl binary64 → Fl binary64) : Prop :=
  ∀ (a b : Fl binary64) (x y : ℝ), Is a x → Is b y → 1 / 10 ^ 100 ≤ x → x ≤ 10 ^ 100 → 0 < y → y < 1 → ∃ v : ℝ, Is (pow a b) v ∧ |v - x ^ y| ≤ 1 / 2 ^ 52 * x ^ y

end Qcd.Spec
