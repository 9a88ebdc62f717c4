import Verif.Model.PartialNum
import Verif.Model.Integrator

/-!
# The numerical integrator on integrands that may be undefined

The formulas of the vacuum models are written over the class `NumOps`, so they can be read over `PV T` directly: the instance below.
The integrator is an arbitrary function again; the laws say how its result depends on the abscissae at which it reads the integrand. -/

namespace Qcd
open consts (Integral)

namespace PV
variable {T : Type}

/-- types.rs l.25-57 read over `PV T`. -/
noncomputable instance [Num T] [NumDom T] : NumOps (PV T) where
  add := (· + ·)
  sub := (· - ·)
  mul := (· * ·)
  div := (· / ·)
  neg := (- ·)
  inv := (·⁻¹)
  ofR r := val (Qcd.ofR r)
  ln := PV.ln
  sqrt := PV.sqrt
  exp := PV.exp

/-- types.rs l.27: `num::Zero`. -/
instance [Zero T] : Zero (PV T) := ⟨val 0⟩

/-- The field `re` of a complex number (types.rs l.72-89, l.122-125). -/
def re : PV ℂ → PV ℝ := map Complex.re

/-- Passing a number that may be undefined to a function of a number (types.rs l.25-57). -/
def bind {S : Type} (x : PV T) (f : T → PV S) : PV S :=
  match x with
  | val x => f x
  | undef => undef

end PV

/-- common/thermal.rs l.167-169. -/
noncomputable def P.fermi_momentum (m mu : PV ℝ) : PV ℝ := PV.sqrt (mu * mu + -(m * m))

/-- `integrate` (see `Model/Integrator.lean`) on integrands that may be undefined (imported in qcd/thermal.rs l.294). -/
structure PIntegrator where
  real : (ℝ → PV ℝ) → ℝ × ℝ → Integral ℝ → PV ℝ
  cplx : (ℝ → PV ℂ) → ℝ × ℝ → Integral ℝ → PV ℂ

namespace PIntegrator

/-- `pg` extends the integrator `ig`, and reads the integrand strictly between the end points only: if the integrand is defined
there, so is the integral, and it has the value given by `ig`. Nothing is said of empty intervals, where there are no such points (imported in qcd/thermal.rs l.294). -/
structure Extends (pg : PIntegrator) (ig : Integrator) : Prop where
  real : ∀ f g a b m, a ≠ b → (∀ x, min a b < x → x < max a b → f x = .val (g x)) → pg.real f (a, b) m = .val (ig.real g (a, b) m)
  cplx : ∀ f g a b m, a ≠ b → (∀ x, min a b < x → x < max a b → f x = .val (g x)) → pg.cplx f (a, b) m = .val (ig.cplx g (a, b) m)

/-- On the unit interval `pg` reads real integrands at abscissae in `N` only (imported in qcd/thermal.rs l.294). -/
def ReadsOnly (pg : PIntegrator) (ig : Integrator) (N : Set ℝ) : Prop :=
  ∀ f g m, (∀ x ∈ N, f x = .val (g x)) → pg.real f (0, 1) m = .val (ig.real g (0, 1) m)

/-- On the unit interval `pg` reads every real integrand at the abscissa `t` (imported in qcd/thermal.rs l.294). -/
def Reads (pg : PIntegrator) (t : ℝ) : Prop := ∀ f m, f t = .undef → pg.real f (0, 1) m = .undef

/-- On an empty interval `pg` reads the integrand at the end point (as a quadrature rule does: all the abscissae coincide) (imported in qcd/thermal.rs l.294). -/
structure ReadsEnd (pg : PIntegrator) : Prop where
  real : ∀ f a m, f a = .undef → pg.real f (a, a) m = .undef
  cplx : ∀ f a m, f a = .undef → pg.cplx f (a, a) m = .undef

/-- The integrator that reads the integrand everywhere strictly between the end points (imported in qcd/thermal.rs l.294). -/
noncomputable def ofIntegrator (ig : Integrator) : PIntegrator where
  real f r m := open Classical in
    if h : ∃ g, ∀ x, min r.1 r.2 < x → x < max r.1 r.2 → f x = .val (g x) then .val (ig.real h.choose r m) else .undef
  cplx f r m := open Classical in
    if h : ∃ g, ∀ x, min r.1 r.2 < x → x < max r.1 r.2 → f x = .val (g x) then .val (ig.cplx h.choose r m) else .undef

/-- A quadrature rule: the abscissae on the unit interval and their weights (imported in qcd/thermal.rs l.294). -/
noncomputable def rule (nodes : List (ℝ × ℝ)) : PIntegrator where
  real f r _ := (nodes.map fun n => f (r.1 + (r.2 - r.1) * n.1) * .val (n.2 * (r.2 - r.1))).sum
  cplx f r _ := (nodes.map fun n => f (r.1 + (r.2 - r.1) * n.1) * .val (((n.2 * (r.2 - r.1) : ℝ)) : ℂ)).sum

/-- The same rule on numbers (imported in qcd/thermal.rs l.294). -/
noncomputable def _root_.Qcd.Integrator.rule (nodes : List (ℝ × ℝ)) : Integrator where
  real f r _ := (nodes.map fun n => f (r.1 + (r.2 - r.1) * n.1) * (n.2 * (r.2 - r.1))).sum
  cplx f r _ := (nodes.map fun n => f (r.1 + (r.2 - r.1) * n.1) * (((n.2 * (r.2 - r.1) : ℝ)) : ℂ)).sum

end PIntegrator
end Qcd
