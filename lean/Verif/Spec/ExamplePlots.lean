import Verif.Spec.Overall
import Verif.Model.Vacuum

/-! # What the gluon plots should show -/

namespace Qcd.Spec

/-- The temperatures of the curves, in GeV: 100, 75, 50, 25, 10 and 5 MeV. -/
noncomputable def temperatures : List ℝ := [0.1, 0.075, 0.05, 0.025, 0.01, 0.005]

/-- `n + 1` equally spaced points from `a` to `b`. -/
def Grid (l : List ℝ) (n : ℕ) (a b : ℝ) : Prop :=
  l.length = n + 1 ∧ ∀ i, i ≤ n → l[i]? = some (a + i * ((b - a) / n))

/-- The plot has a labelled curve for each temperature, with the function `D T`, and a last one with `D0`. The functions are complex: the curves say
that their values on the domain are real. -/
structure Shows (pl : tc.Plot) (D : ℝ → ℝ → ℂ) (D0 : ℝ → ℂ) : Prop where
  drawable : tc.Spec.Plot.WellFormed pl
  curves : pl.images.length = 7
  labels : pl.legend.length = 7
  thermal : ∀ (j : ℕ) (T : ℝ), temperatures[j]? = some T → ∃ c, pl.images[j]? = some c ∧ c.map Complex.ofReal = pl.domain.map (D T)
  zero : ∃ c, pl.images[6]? = some c ∧ c.map Complex.ofReal = pl.domain.map D0

/-- What the curves should be: the inverse dressing function with `nf` quarks of mass `mq` dressed by mass insertions, as a function of the squared
momentum. The constant `2/27` is added to the loop of each quark. -/
noncomputable def compared (nc : ℕ) (m mq f0 z : ℝ) (nf : ℕ) (p2 : ℝ) : ℝ :=
  (ym.gluon.dressing_inv_landau (p2 / m ^ 2) f0 + (nf : ℝ) / (nc : ℝ) * (gluon.f_q_crossed (p2 / mq ^ 2) + 2 / 27)) / z

/-- The six parameter sets of the program. -/
noncomputable def comparedSets : List (ℝ × ℝ × ℝ × ℝ × ℕ) :=
  [(0.8, 0.65, -0.65, 0.4, 2), (0.73, 0.65, -0.65, 0.4, 2), (0.73, 0.65, -1.05, 1, 0),
   (0.8, 0.5, -0.6, 0.4, 2), (0.73, 0.5, -0.6, 0.4, 2), (0.73, 0.5, -1.05, 1, 0)]

end Qcd.Spec
