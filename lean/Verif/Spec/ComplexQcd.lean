import Verif.Spec.ComplexPlane
import Verif.Model.ComplexQcd

/-! # Specification: the gluon functions with quarks off the real axis in floating-point arithmetic -/

namespace Qcd.Spec
open Fl

/-- The quark loop is off the axis, too: the squared momentum in units of the squared quark mass, `s / ρ`, has parts of absolute value at most `10^6`, and
an imaginary part of at least `10^-13`. The squared quark mass `ρ`, in units of the gluon mass, is between `10^-12` and `10^12`. -/
structure LoopOff (s : ℂ) (ρ : ℝ) : Prop where
  lo : 1 / 10 ^ 12 ≤ ρ
  hi : ρ ≤ 10 ^ 12
  re_hi : |s.re| / ρ ≤ 10 ^ 6
  im_lo : 1 / 10 ^ 13 ≤ |s.im| / ρ
  im_hi : |s.im| / ρ ≤ 10 ^ 6

/-- The configuration of `nc` colours, a gluon of mass `m` and quarks `qs` (numbers of flavours and masses), computed in `f64`. -/
noncomputable def quarkConfig (nc : ℕ) (m : ℝ) (qs : List (ℕ × ℝ)) : ComputedConfig (Fl binary64) :=
  ComputedConfig.new nc (ofR m) (qs.map fun q => (q.1, ofR q.2))

/-- A flavour of quarks, in a theory with gluon mass `m`, at squared momentum `s` in units of `m²`. -/
structure FlavourOff (m : ℝ) (s : ℂ) (q : ℕ × ℝ) : Prop where
  few : q.1 ≤ 10 ^ 6
  num : Binary64 q.2
  pos : 0 < q.2
  off : LoopOff s ((q.2 / m) ^ 2)

/-- The inverse dressing functions for a field configuration. -/
noncomputable def configInverses (c xi : Fl binary64) (config : ComputedConfig (Fl binary64)) : List (CFl binary64 → CFl binary64) :=
  [fun s => CFl.qcd.dressing_inv_landau_w_field_config s c config, fun s => CFl.qcd.dressing_inv_w_field_config s c xi config,
    fun s => CFl.qcd.dressing_crossed_inv_landau_w_field_config s c config, fun s => CFl.qcd.dressing_crossed_inv_w_field_config s c xi config]

/-- The dressing functions and propagators for a field configuration. -/
noncomputable def configPropagators (c xi : Fl binary64) (config : ComputedConfig (Fl binary64)) : List (CFl binary64 → CFl binary64) :=
  [fun s => CFl.qcd.dressing_landau_w_field_config s c config, fun s => CFl.qcd.dressing_w_field_config s c xi config,
    fun s => CFl.qcd.dressing_crossed_landau_w_field_config s c config, fun s => CFl.qcd.dressing_crossed_w_field_config s c xi config,
    fun s => CFl.qcd.propagator_landau_w_field_config s c config, fun s => CFl.qcd.propagator_w_field_config s c xi config,
    fun s => CFl.qcd.propagator_crossed_landau_w_field_config s c config, fun s => CFl.qcd.propagator_crossed_w_field_config s c xi config]

/-- The inverse dressing functions for one quark mass `mq` and the constant `k` (`nf / nc`). -/
noncomputable def globalInverses (k mq c xi : Fl binary64) : List (CFl binary64 → CFl binary64) :=
  [fun s => CFl.qcd.dressing_inv_landau k s mq c, fun s => CFl.qcd.dressing_inv k s mq c xi,
    fun s => CFl.qcd.dressing_crossed_inv_landau k s mq c, fun s => CFl.qcd.dressing_crossed_inv k s mq c xi]

/-- The dressing functions and propagators for one quark mass. -/
noncomputable def globalPropagators (k mq c xi : Fl binary64) : List (CFl binary64 → CFl binary64) :=
  [fun s => CFl.qcd.dressing_landau k s mq c, fun s => CFl.qcd.dressing k s mq c xi,
    fun s => CFl.qcd.dressing_crossed_landau k s mq c, fun s => CFl.qcd.dressing_crossed k s mq c xi,
    fun s => CFl.qcd.propagator_landau k s mq c, fun s => CFl.qcd.propagator k s mq c xi,
    fun s => CFl.qcd.propagator_crossed_landau k s mq c, fun s => CFl.qcd.propagator_crossed k s mq c xi]

/-- `q.1` quarks of mass `q.2` beside a gluon of mass `m`, at the complex squared momentum `s`, in units of `m²`. -/
structure FlavourSector (m : ℝ) (s : ℂ) (q : ℕ × ℝ) : Prop where
  some : 1 ≤ q.1
  few : q.1 ≤ 10 ^ 6
  num : Binary64 q.2
  lo : 1 / 10 ^ 6 ≤ q.2 / m
  hi : q.2 / m ≤ 10 ^ 6
  heavy : 2 / 10 ^ 6 ≤ ‖s‖ / (q.2 / m) ^ 2
  light : ‖s‖ / (q.2 / m) ^ 2 ≤ 10 ^ 6 / 2

/-- The sum of the loops `G` of all quarks, each at its own argument `z q`. -/
noncomputable def quarksSum (G : ℂ → ℂ) (nc : ℕ) (z : ℕ × ℝ → ℂ) (qs : List (ℕ × ℝ)) : ℂ := (qs.map fun q => G (z q) * (((q.1 : ℝ) / nc : ℝ) : ℂ)).sum

/-- The sum of the scales of the loops. -/
noncomputable def quarksScaleC (S : ℂ → ℝ) (nc : ℕ) (z : ℕ × ℝ → ℂ) (qs : List (ℕ × ℝ)) : ℝ := (qs.map fun q => S (z q) * ((q.1 : ℝ) / nc)).sum

/-- `a` is near `j`, with error `e`. If the error is at most half of `j`, and `j` neither very small nor very large, the dressing function `d` is near
`1 / j` and the propagator `p` is near `1 / (j s)`. -/
def AllNear (a d p : CFl binary64) (j s : ℂ) (e : ℝ) : Prop := NearC a j e ∧ (2 * e ≤ ‖j‖ → 1 / 10 ^ 30 ≤ ‖j‖ → ‖j‖ ≤ 10 ^ 30 →
  NearC d (1 / j) (132 * ulp / ‖j‖ + 2 * e / ‖j‖ ^ 2) ∧ NearC p (1 / (j * s)) ((410 * ulp / ‖j‖ + 2 * e / ‖j‖ ^ 2) / ‖s‖))

end Qcd.Spec
