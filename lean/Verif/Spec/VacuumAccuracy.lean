import Verif.Spec.Floats
import Verif.Model.Binary64

/-! # Specification: the accuracy of computed vacuum functions

The scale of a function is the sum of the absolute values of its terms, with `|ln t| + 1` for a logarithm: the error of a logarithm is relative to its
value and to the relative error of its argument. `(a + 1) / (a - 1)` is the loss of digits of the difference `a - 1`. -/

namespace Qcd.Spec

/-- The floating-point number `a` is a real number at most `e` away from `x`. -/
def Near (a : Fl binary64) (x e : ℝ) : Prop := ∃ v : ℝ, Is a v ∧ |v - x| ≤ e

/-- `x` is the number `s` of the type `f64`, the square of a momentum in units of the mass, between `10^-6` and `10^6`. -/
structure Medium (x : Fl binary64) (s : ℝ) : Prop where
  is : Is x s
  num : Binary64 s
  lo : 1 / 10 ^ 6 ≤ s
  hi : s ≤ 10 ^ 6

/-- The relative error of one rounding. -/
noncomputable def ulp : ℝ := 1 / 2 ^ 53

noncomputable def lnScale (t : ℝ) : ℝ := |Real.log t| + 1

noncomputable def ghostScale (s : ℝ) : ℝ := ((1 + s) ^ 2 * (2 / s + 1 / s ^ 2) * lnScale (1 + s) + 2 * s * lnScale s + 1 / s + 2) / 12

noncomputable def root (s : ℝ) : ℝ := √(1 + 4 / s)

noncomputable def gluonScale (s : ℝ) : ℝ :=
  ((3 * s ^ 2 + 34 * s + 28 + 24 / s) * root s * (2 * (|Real.log ((root s - 1) / 2)| + (root s + 1) / (root s - 1)) + lnScale s)
    + 2 * (1 + s) ^ 2 * (20 / s + 3 + 11 / s ^ 2 + 2 / s ^ 3) * lnScale (1 + s) + (3 * s ^ 2 + 2) * lnScale s
    + (s + 4) * (s + 20 + 12 / s) + 2 * (1 + s) ^ 2 * (10 / s + 1 + 1 / s ^ 2) + (2 / s ^ 2 + 2 + s ^ 2)) / 72 + 5 / (8 * s)

noncomputable def gluonGaugeScale (s : ℝ) : ℝ :=
  1 / (4 * s) + (2 * s * lnScale s + 2 * (1 / s ^ 2 + 1 / s) * (1 / s + s ^ 2) * lnScale (1 + s) + 3 + 3 / s + 2 / s ^ 2) / 12

noncomputable def quarkScale (s : ℝ) : ℝ :=
  4 / 9 * ((1 / s + 1 / 2) * root s * (|Real.log ((root s - 1) / (root s + 1))| + (root s + 1) / (root s - 1)) + 2 / s + 5 / 6)

noncomputable def crossedScale (s : ℝ) : ℝ :=
  4 / 9 * (4 / s + 1 / 6 + (1 / s + 1 / 2 + 8 / s ^ 2) / root s * (|Real.log ((root s - 1) / (root s + 1))| + (root s + 1) / (root s - 1)))

/-- `q.1` quarks of mass `q.2` beside a gluon of mass `m`, at the squared momentum `s` (in units of `m`): the ratio of the masses is between `10^-6`
and `10^6`, and so is the squared momentum in units of the quark mass. -/
structure Flavour (m s : ℝ) (q : ℕ × ℝ) : Prop where
  some : 1 ≤ q.1
  few : q.1 ≤ 10 ^ 6
  num : Binary64 q.2
  lo : 1 / 10 ^ 6 ≤ q.2 / m
  hi : q.2 / m ≤ 10 ^ 6
  heavy : 1 / 10 ^ 6 ≤ s / (q.2 / m) ^ 2
  light : s / (q.2 / m) ^ 2 ≤ 10 ^ 6

/-- A very light quark: its squared mass is less than `2^-56` times the squared momentum (and not so small that the ratio overflows). -/
structure Chiral (m s : ℝ) (q : ℕ × ℝ) : Prop where
  some : 1 ≤ q.1
  few : q.1 ≤ 10 ^ 6
  num : Binary64 q.2
  lo : 1 / 10 ^ 100 ≤ q.2 / m
  light : 2 ^ 56 ≤ s / (q.2 / m) ^ 2

/-- The scale of the quark loops: the scale `S` of one loop, at the momentum in units of the quark mass, times the number of quarks per colour. -/
noncomputable def quarksScale (S : ℝ → ℝ) (nc : ℕ) (m s : ℝ) (qs : List (ℕ × ℝ)) : ℝ :=
  (qs.map fun q => S (s / (q.2 / m) ^ 2) * (q.1 / nc)).sum

end Qcd.Spec
