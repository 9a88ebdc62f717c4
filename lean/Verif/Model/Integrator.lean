import Verif.Model.Consts
import Mathlib.Analysis.Complex.Basic
import Mathlib.MeasureTheory.Integral.IntervalIntegral.Basic

/-! # The numerical integrator

`peroxide::numerical::integral::integrate` (imported in thermal/ghost.rs l.14, thermal/gluon.rs l.15,
qcd/thermal.rs l.294) is external code. It is modelled by an arbitrary pure function of the
integrand, the interval and the method, one for each of the two integrand types the crate uses.
Theorems either hold for every integrator, or state which law they need. -/

namespace Qcd
open consts (Integral)

/-- `integrate`, at `R` and at `C` (types.rs l.5-6 and the imports thermal/ghost.rs l.14, thermal/gluon.rs l.15, qcd/thermal.rs l.294). -/
structure Integrator where
  real : (ℝ → ℝ) → ℝ × ℝ → Integral ℝ → ℝ
  cplx : (ℝ → ℂ) → ℝ × ℝ → Integral ℝ → ℂ

namespace Integrator

/-- The integrand is only evaluated strictly between the end points (as Gauss-Kronrod and
Gauss-Legendre rules do) (types.rs l.5-6 and the imports thermal/ghost.rs l.14, thermal/gluon.rs l.15, qcd/thermal.rs l.294). -/
structure Interior (ig : Integrator) : Prop where
  real : ∀ f g a b m, (∀ x, min a b < x → x < max a b → f x = g x) → ig.real f (a, b) m = ig.real g (a, b) m
  cplx : ∀ f g a b m, (∀ x, min a b < x → x < max a b → f x = g x) → ig.cplx f (a, b) m = ig.cplx g (a, b) m

/-- Complex conjugating the integrand conjugates the result (types.rs l.5-6 and the imports thermal/ghost.rs l.14, thermal/gluon.rs l.15, qcd/thermal.rs l.294). -/
def Conj (ig : Integrator) : Prop :=
  ∀ (f : ℝ → ℂ) r m, ig.cplx (fun x => (starRingEnd ℂ) (f x)) r m = (starRingEnd ℂ) (ig.cplx f r m)

/-- Negating the integrand negates the result (types.rs l.5-6 and the imports thermal/ghost.rs l.14, thermal/gluon.rs l.15, qcd/thermal.rs l.294). -/
structure Odd (ig : Integrator) : Prop where
  real : ∀ f r m, ig.real (fun x => -f x) r m = -ig.real f r m
  cplx : ∀ f r m, ig.cplx (fun x => -f x) r m = -ig.cplx f r m

/-- The zero integrand gives zero (types.rs l.5-6 and the imports thermal/ghost.rs l.14, thermal/gluon.rs l.15, qcd/thermal.rs l.294). -/
structure Zero (ig : Integrator) : Prop where
  real : ∀ r m, ig.real (fun _ => 0) r m = 0
  cplx : ∀ r m, ig.cplx (fun _ => 0) r m = 0

/-- The integrator without quadrature error: the Lebesgue integral over the interval (zero when
the integrand is not integrable), whatever the method (types.rs l.5-6 and the imports thermal/ghost.rs l.14, thermal/gluon.rs l.15, qcd/thermal.rs l.294). -/
noncomputable def exact : Integrator where
  real f r _ := ∫ x in r.1..r.2, f x
  cplx f r _ := ∫ x in r.1..r.2, f x

end Integrator
end Qcd
