import Mathlib.MeasureTheory.Integral.IntervalIntegral.Basic
import Mathlib.Analysis.SpecialFunctions.Complex.Log
import Mathlib.Analysis.SpecialFunctions.Pow.Complex

/-! # Specification: thermal part of a one-loop integral, before the angular integration

The finite-temperature part of the one-loop integral with external momentum `P = (ω, p)`

`T ∑ₙ ∫ d³q/(2π)³ N(Q) / ((Q² + m₁²) ((Q + P)² + m₂²))`

puts one of the two propagators on shell, `Q = (± i E, q)` with `E = √(q² + m²)`, weighted with the
Bose distribution. What is left is an integral over `q = |q|` and over the cosine `z` of the angle
between `q` and `p`; the measure is `d³q/(2π)³ = q² dq dz/(4π²)`. The definitions below are the integrand
in `q`. They contain no logarithms and mention no function of the model. -/

namespace Qcd.Spec

/-- On-shell energy `√(q² + m²)`, principal square root. -/
noncomputable def en (q : ℝ) (m : ℂ) : ℂ := ((q : ℂ) ^ 2 + m ^ 2) ^ ((1 : ℂ) / 2)

/-- Bose distribution `1 / (exp(β E) - 1)`. -/
noncomputable def bose (beta : ℝ) (e : ℂ) : ℂ := 1 / (Complex.exp (beta * e) - 1)

/-- `K² + m²` for the momentum `K = Q + P`, with `Q = (q₀, q)`, `P = (ω, p)` and `z` the cosine of the
angle between the spatial momenta. -/
def den (q0 : ℂ) (q : ℝ) (om p m : ℂ) (z : ℝ) : ℂ :=
  (q0 + om) ^ 2 + ((q : ℂ) ^ 2 + p ^ 2 + 2 * q * p * z) + m ^ 2

/-- The propagator of mass `m` on shell with weight `n(E)/(2E)`, both signs of the energy, the other propagator of
mass `m'`, numerator `N q₀ z`; angular integral with its measure. -/
noncomputable def leg (N : ℂ → ℝ → ℂ) (q : ℝ) (om p m m' : ℂ) (beta : ℝ) : ℂ :=
  (q : ℂ) ^ 2 / (4 * (Real.pi : ℂ) ^ 2) * (bose beta (en q m) / (2 * en q m)) *
    ∫ z in (-1 : ℝ)..1,
      (N (Complex.I * en q m) z / den (Complex.I * en q m) q om p m' z
        + N (-(Complex.I * en q m)) z / den (-(Complex.I * en q m)) q om p m' z)

/-- The thermal part of the two-propagator loop: either propagator on shell. -/
noncomputable def loop (N : ℂ → ℝ → ℂ) (q : ℝ) (om p m1 m2 : ℂ) (beta : ℝ) : ℂ :=
  leg N q om p m1 m2 beta + leg N q om p m2 m1 beta

/-- No numerator. -/
def scalar : ℂ → ℝ → ℂ := fun _ _ => 1

/-- `(u·Q)²` with `u = (p, -ω)/√(ω²+p²)` the unit vector orthogonal to `P` in the plane of `P` and of the thermal bath. -/
noncomputable def longitudinal (q : ℝ) (om p : ℂ) : ℂ → ℝ → ℂ :=
  fun q0 z => (p * q0 - om * (q * z)) ^ 2 / (om ^ 2 + p ^ 2)

/-- `q_⊥²/2`: the average over the two directions orthogonal to `P` and to the thermal bath. -/
noncomputable def transverse (q : ℝ) : ℂ → ℝ → ℂ := fun _ z => (q : ℂ) ^ 2 * (1 - (z : ℂ) ^ 2) / 2

/-- The two denominators of a leg do not vanish at any angle. -/
def RegularLeg (q : ℝ) (om p m m' : ℂ) : Prop :=
  ∀ z ∈ Set.Icc (-1 : ℝ) 1,
    den (Complex.I * en q m) q om p m' z ≠ 0 ∧ den (-(Complex.I * en q m)) q om p m' z ≠ 0

/-- The integrand is regular. -/
def Regular (q : ℝ) (om p m1 m2 : ℂ) : Prop := RegularLeg q om p m1 m2 ∧ RegularLeg q om p m2 m1

/-! ### Tadpoles -/

/-- One propagator on shell and nothing else: thermal part of `T ∑ₙ ∫ d³q/(2π)³ N(Q)/(Q² + m²)`. -/
noncomputable def tadpole (N : ℂ → ℝ → ℂ) (q : ℝ) (m : ℂ) (beta : ℝ) : ℂ :=
  (q : ℂ) ^ 2 / (4 * (Real.pi : ℂ) ^ 2) * (bose beta (en q m) / (2 * en q m)) *
    ∫ z in (-1 : ℝ)..1, (N (Complex.I * en q m) z + N (-(Complex.I * en q m)) z)

/-- `q₀²`. -/
def energySq : ℂ → ℝ → ℂ := fun q0 _ => q0 ^ 2

/-! ### Quark loop

The trace `-¼ tr[γ_μ (-i Q̸ + m) γ_ν (-i K̸ + m)] = Q_μ K_ν + K_μ Q_ν - δ_μν (Q·K + m²)` with `K = Q + P`, on shell `Q² = -m²`.
There `Q·K + m² = Q·P = (K² + m² - P²)/2`. Projected on a direction `u` orthogonal to `P`, `u·K = u·Q`. -/

/-- `K² + m²` on shell is `D`; the projected trace is `2 (u·Q)² - (D - P²)/2`. -/
noncomputable def quarkL (q : ℝ) (om p m : ℂ) : ℂ → ℝ → ℂ :=
  fun q0 z => 2 * longitudinal q om p q0 z - (den q0 q om p m z - (om ^ 2 + p ^ 2)) / 2

/-- The same averaged over the two transverse directions. -/
noncomputable def quarkT (q : ℝ) (om p m : ℂ) : ℂ → ℝ → ℂ :=
  fun q0 z => 2 * transverse q q0 z - (den q0 q om p m z - (om ^ 2 + p ^ 2)) / 2

/-- Quark and antiquark on shell, with occupation `n` (the sum of the two Fermi distributions), normalised with the
number of colours as the library does. -/
noncomputable def quarkLoop (N : ℂ → ℝ → ℂ) (nc : ℝ) (n : ℝ) (q : ℝ) (om p : ℂ) (m : ℝ) : ℂ :=
  2 / nc * ((q : ℂ) ^ 2 / (4 * (Real.pi : ℂ) ^ 2) * (n / (2 * en q m)) *
    ∫ z in (-1 : ℝ)..1,
      (N (Complex.I * en q m) z / den (Complex.I * en q m) q om p m z
        + N (-(Complex.I * en q m)) z / den (-(Complex.I * en q m)) q om p m z))

end Qcd.Spec
