import Verif.Spec.ComplexAccuracy
import Verif.Model.ComplexFloats

/-! # Specification: the vacuum functions off the real axis in floating-point arithmetic

The squared momentum is anywhere in the plane, to the left of the origin as well, but for a strip of width `10^-13` about the real axis. -/

namespace Qcd.Spec
open Fl

/-- `x` is the complex number `s`, with parts of absolute value at most `10^6`, at least `10^-13` away from the real axis. -/
structure OffAxis (x : CFl binary64) (s : ℂ) : Prop where
  re : Is x.re s.re
  im : Is x.im s.im
  re_hi : |s.re| ≤ 10 ^ 6
  im_lo : 1 / 10 ^ 13 ≤ |s.im|
  im_hi : |s.im| ≤ 10 ^ 6

/-- The functions of the self-energies. -/
noncomputable def loops : List (CFl binary64 → CFl binary64) :=
  [CFl.ghost.g, CFl.ghost.g_xi, CFl.gluon.f, CFl.gluon.f_xi, CFl.gluon.f_q, CFl.gluon.f_q_crossed]

/-- The inverse dressing functions with additive constant `c` and gauge parameter `xi`. -/
noncomputable def inverses (c xi : Fl binary64) : List (CFl binary64 → CFl binary64) :=
  [fun s => CFl.ghost.dressing_inv_landau s c, fun s => CFl.ghost.dressing_inv s c xi,
    fun s => CFl.gluon.dressing_inv_landau s c, fun s => CFl.gluon.dressing_inv s c xi]

/-- The dressing functions and the propagators. -/
noncomputable def propagators (c xi : Fl binary64) : List (CFl binary64 → CFl binary64) :=
  [fun s => CFl.ghost.dressing_landau s c, fun s => CFl.ghost.dressing s c xi,
    fun s => CFl.ghost.propagator_landau s c, fun s => CFl.ghost.propagator s c xi,
    fun s => CFl.gluon.dressing_landau s c, fun s => CFl.gluon.dressing s c xi,
    fun s => CFl.gluon.propagator_landau s c, fun s => CFl.gluon.propagator s c xi]

/-- The spectral function computed at the real number `x` has imaginary part exactly zero. Its real part is `-2 v / (2 pi)`, with one rounding for `2 v`,
two for `2 pi` and one for the quotient. -/
def SpectralIs (F : CFl binary64 → CFl binary64) (x v : ℝ) : Prop := ∃ p P w : ℝ,
  binary64.rnd Real.pi = (p : EReal) ∧ binary64.rnd (2 * p) = (P : EReal) ∧ binary64.rnd (2 * v) = (w : EReal) ∧
    Is (CFl.spectral_function F ⟨num (x : EReal), num 0⟩).im 0 ∧ IsE (CFl.spectral_function F ⟨num (x : EReal), num 0⟩).re (binary64.rnd (-w / P))

/-- The dressing function `d` and the propagator `p` computed from an inverse dressing function with exact value `j` and error `e`, at the exact squared
momentum `s`: if the error is at most half of the value, and the value is neither very small nor very large, they are near the exact values `zd` and `zp`. -/
def PropagatorNear (d p : CFl binary64) (zd zp j s : ℂ) (e : ℝ) : Prop := 2 * e ≤ ‖j‖ → 1 / 10 ^ 30 ≤ ‖j‖ → ‖j‖ ≤ 10 ^ 30 →
  NearC d zd (132 * ulp / ‖j‖ + 2 * e / ‖j‖ ^ 2) ∧ NearC p zp ((310 * ulp / ‖j‖ + 2 * e / ‖j‖ ^ 2) / ‖s‖)

end Qcd.Spec
