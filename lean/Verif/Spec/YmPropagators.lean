import Mathlib.Data.Real.Basic
import Mathlib.Data.Rat.Cast.Defs

/-! # The gluon propagators of Yang-Mills theory at finite temperature: parameters and normalisation

The tables of the example `ym_thermal_gluon_propagator`: for each temperature in MeV the gluon mass and the additive constant (relative to
the vacuum value -0.876), longitudinal and transverse. -/

namespace Spec

/-- One entry: temperature in MeV, mass in GeV, additive constant, Matsubara regulator in GeV. -/
structure YmRow where
  mev : ℕ
  m : ℚ
  f0 : ℚ
  om : ℚ

/-- Longitudinal; the entry at 260 MeV has a doubled regulator. -/
def ymLongitudinal : List YmRow :=
  [⟨121, 525 / 1000, -5 / 100 - 876 / 1000, 1 / 1000⟩, ⟨194, 175 / 1000, -130 / 100 - 876 / 1000, 1 / 1000⟩,
   ⟨260, 25 / 1000, -440 / 100 - 876 / 1000, 2 / 1000⟩, ⟨290, 100 / 1000, -100 / 100 - 876 / 1000, 1 / 1000⟩,
   ⟨366, 350 / 1000, 120 / 100 - 876 / 1000, 1 / 1000⟩, ⟨458, 650 / 1000, 180 / 100 - 876 / 1000, 1 / 1000⟩]

/-- Transverse. -/
def ymTransverse : List YmRow :=
  [⟨121, 675 / 1000, 5 / 100 - 876 / 1000, 1 / 1000⟩, ⟨194, 725 / 1000, 10 / 100 - 876 / 1000, 1 / 1000⟩,
   ⟨260, 775 / 1000, 30 / 100 - 876 / 1000, 1 / 1000⟩, ⟨290, 725 / 1000, 40 / 100 - 876 / 1000, 1 / 1000⟩,
   ⟨366, 800 / 1000, 50 / 100 - 876 / 1000, 1 / 1000⟩, ⟨458, 900 / 1000, 60 / 100 - 876 / 1000, 1 / 1000⟩]

/-- A propagator multiplied by the constant that makes it `1/p²` at `p = 4` GeV. -/
noncomputable def at4GeV (D : ℝ → ℝ) (p : ℝ) : ℝ := D p / (4 ^ 2 * D 4)

/-- 0.2, 0.21, …, 3 GeV. -/
noncomputable def ymMomenta : List ℝ := (List.range 281).map fun j : ℕ => (20 + (j : ℝ)) / 100

end Spec
