import Verif.Model.FloatDensity

/-! # The charge density at finite temperature in floating-point arithmetic -/

namespace Qcd.F
variable {r : Rounding}

/-- qcd/thermal.rs l.354-362 `charge_density_i`. The number of colours is an argument. -/
noncomputable def charge_density_i (nc : ℕ) (q m beta mu : Fl r) : Fl r :=
  let en := energy q m
  ofR (nc : ℝ) * q * q * (fermi_distribution en beta mu - fermi_distribution en beta (-mu)) / PI2

/-- qcd/thermal.rs l.300: the integrand as a function of the variable of integration, which runs from zero to one. -/
noncomputable def charge_density_integrand (nc : ℕ) (m beta mu t : Fl r) : Fl r :=
  charge_density_i nc ((ofR 1 - t) / t) m beta mu / (t * t)

/-- qcd/thermal.rs l.298-304. `integrate` is the external function of peroxide, for the interval from zero to one and the given method. -/
noncomputable def charge_density_with_method (integrate : (Fl r → Fl r) → Fl r) (nc : ℕ) (m beta mu : Fl r) : Fl r :=
  integrate (charge_density_integrand nc m beta mu)

end Qcd.F
