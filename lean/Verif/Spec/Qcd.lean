import Verif.Model.Qcd

/-! Specification of the vacuum QCD functions: the whole public interface at one configuration,
and the sum over quarks they should add. -/

namespace Qcd
open consts (Consts)
variable {T : Type} [Num T]

/-- The values of all twelve field-configuration functions of `qcd::gluon`. -/
noncomputable def configValues (k : Consts ℝ) (s : T) (f0 xi : ℝ) (c : FieldConfig) : List T :=
  [qcd.gluon.dressing_inv_landau_w_field_config k s f0 c,
   qcd.gluon.dressing_inv_w_field_config k s f0 xi c,
   qcd.gluon.dressing_landau_w_field_config k s f0 c,
   qcd.gluon.dressing_w_field_config k s f0 xi c,
   qcd.gluon.propagator_landau_w_field_config k s f0 c,
   qcd.gluon.propagator_w_field_config k s f0 xi c,
   qcd.gluon.dressing_crossed_inv_landau_w_field_config k s f0 c,
   qcd.gluon.dressing_crossed_inv_w_field_config k s f0 xi c,
   qcd.gluon.dressing_crossed_landau_w_field_config k s f0 c,
   qcd.gluon.dressing_crossed_w_field_config k s f0 xi c,
   qcd.gluon.propagator_crossed_landau_w_field_config k s f0 c,
   qcd.gluon.propagator_crossed_w_field_config k s f0 xi c]

/-- The values of the twelve single-mass functions of `qcd::gluon`, same order. -/
noncomputable def globalValues (k : Consts ℝ) (s : T) (mq f0 xi : ℝ) : List T :=
  [qcd.gluon.dressing_inv_landau k s mq f0,
   qcd.gluon.dressing_inv k s mq f0 xi,
   qcd.gluon.dressing_landau k s mq f0,
   qcd.gluon.dressing k s mq f0 xi,
   qcd.gluon.propagator_landau k s mq f0,
   qcd.gluon.propagator k s mq f0 xi,
   qcd.gluon.dressing_crossed_inv_landau k s mq f0,
   qcd.gluon.dressing_crossed_inv k s mq f0 xi,
   qcd.gluon.dressing_crossed_landau k s mq f0,
   qcd.gluon.dressing_crossed k s mq f0 xi,
   qcd.gluon.propagator_crossed_landau k s mq f0,
   qcd.gluon.propagator_crossed k s mq f0 xi]

/-- The six Yang-Mills values, twice: they have no crossed variant. -/
noncomputable def ymValues (s : T) (f0 xi : ℝ) : List T :=
  let l := [ym.gluon.dressing_inv_landau s f0, ym.gluon.dressing_inv s f0 xi,
    ym.gluon.dressing_landau s f0, ym.gluon.dressing s f0 xi,
    ym.gluon.propagator_landau s f0, ym.gluon.propagator s f0 xi]
  l ++ l

/-- The quark contribution to the inverse dressing: the sum over the list of
`(nf/nc) F(s m²/mq²)`, where `F` is the quark loop function. -/
noncomputable def quarkSum (F : T → T) (s : T) (nc : ℕ) (m : ℝ) (qs : List (ℕ × ℝ)) : T :=
  (qs.map fun q => F (s / ofR ((q.2 / m) ^ 2)) * ofR ((q.1 : ℝ) / (nc : ℝ))).sum

end Qcd
