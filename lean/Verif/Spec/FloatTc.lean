import Verif.Spec.FloatRoot
import Verif.Spec.TcLongProp
import Mathlib.Data.List.Forall2

/-! # Specification: phase boundaries, grids and fits in floating-point arithmetic -/

namespace Qcd.Spec

/-- The floating-point boundary `pb` consists of the numbers of `q`. -/
def SameBoundary {r : Rounding} (pb : List (Fl r × Fl r)) (q : List (ℝ × ℝ)) : Prop := List.Forall₂ (fun a b => Is a.1 b.1 ∧ Is a.2 b.2) pb q

/-- The temperature at `x` on the straight line through two points of a boundary. -/
noncomputable def lineTemperature (p q : ℝ × ℝ) (x : ℝ) : ℝ := p.2 + (q.2 - p.2) * ((x - p.1) / (q.1 - p.1))

/-- The segment of the boundary above `x`, if there is one, has numbers of ordinary size and differs from the temperature `y` by more than `10^-14` of its temperatures. -/
def AwayFrom (x y : ℝ) (pb : List (ℝ × ℝ)) : Prop :=
  ∀ p q, [p, q] <:+: pb → p.1 < x → x < q.1 → Middle (q.1 - p.1) ∧ Middle p.2 ∧ |q.2| ≤ 10 ^ 60 ∧ 1 / 10 ^ 14 * (|p.2| + |q.2|) < |y - lineTemperature p q x|

/-- The polynomial with the given coefficients. -/
noncomputable def polynomial (ps : List ℝ) (x : ℝ) : ℝ := ∑ i ∈ Finset.range ps.length, ps.getD i 0 * x ^ i

/-- The size of the terms of the polynomial; each coefficient is enlarged by `2^-900`. -/
noncomputable def polynomialScale (ps : List ℝ) (x : ℝ) : ℝ := ∑ i ∈ Finset.range ps.length, (|ps.getD i 0| + (2 ^ 900)⁻¹) * |x| ^ i

end Qcd.Spec
