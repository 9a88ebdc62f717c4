import Verif.Model.ThermalDressing

/-! # Specification vocabulary for the thermal dressing functions

Lists of the values of all the public functions of a module at the same arguments: inverse
dressing, dressing and propagator, longitudinal and transverse. -/

namespace Qcd
open consts (Consts)

/-- What six such values must be when there is no thermal part: the vacuum inverse dressing `inv`, its
inverse and the propagator at squared momentum `sdim`, for both polarizations. -/
noncomputable def vacuumValues {T : Type} [Num T] (sdim inv : T) : List T :=
  [inv, inv, inv⁻¹, inv⁻¹, sdim⁻¹ * inv⁻¹, sdim⁻¹ * inv⁻¹]

/-- `ym::thermal::gluon`, at finite temperature. -/
noncomputable def ym.thermal.gluon.values {T : Type} [Num T] (ig : Integrator) (k : Consts ℝ) (om : T) (p : ℝ) (m : ℝ) (beta : ℝ) (f0 : ℝ) : List ℂ :=
  [ym.thermal.gluon.dressing_l_inv_landau ig k om p m beta f0,
   ym.thermal.gluon.dressing_t_inv_landau ig k om p m beta f0,
   ym.thermal.gluon.dressing_l_landau ig k om p m beta f0,
   ym.thermal.gluon.dressing_t_landau ig k om p m beta f0,
   ym.thermal.gluon.propagator_l_landau ig k om p m beta f0,
   ym.thermal.gluon.propagator_t_landau ig k om p m beta f0]

/-- `ym::thermal::zero_matsubara::gluon`, at finite temperature. -/
noncomputable def ym.thermal.zero_matsubara.gluon.values (ig : Integrator) (k : Consts ℝ) (p : ℝ) (m : ℝ) (beta : ℝ) (f0 : ℝ) : List ℝ :=
  [ym.thermal.zero_matsubara.gluon.dressing_l_inv_landau ig k p m beta f0,
   ym.thermal.zero_matsubara.gluon.dressing_t_inv_landau ig k p m beta f0,
   ym.thermal.zero_matsubara.gluon.dressing_l_landau ig k p m beta f0,
   ym.thermal.zero_matsubara.gluon.dressing_t_landau ig k p m beta f0,
   ym.thermal.zero_matsubara.gluon.propagator_l_landau ig k p m beta f0,
   ym.thermal.zero_matsubara.gluon.propagator_t_landau ig k p m beta f0]

/-- `ym::thermal::zero_momentum::gluon`, at finite temperature. -/
noncomputable def ym.thermal.zero_momentum.gluon.values {T : Type} [Num T] (ig : Integrator) (k : Consts ℝ) (om : T) (m : ℝ) (beta : ℝ) (f0 : ℝ) : List ℂ :=
  [ym.thermal.zero_momentum.gluon.dressing_l_inv_landau ig k om m beta f0,
   ym.thermal.zero_momentum.gluon.dressing_t_inv_landau ig k om m beta f0,
   ym.thermal.zero_momentum.gluon.dressing_l_landau ig k om m beta f0,
   ym.thermal.zero_momentum.gluon.dressing_t_landau ig k om m beta f0,
   ym.thermal.zero_momentum.gluon.propagator_l_landau ig k om m beta f0,
   ym.thermal.zero_momentum.gluon.propagator_t_landau ig k om m beta f0]

/-- `qcd::thermal::gluon`, at finite temperature. -/
noncomputable def qcd.thermal.gluon.values {T : Type} [Num T] (ig : Integrator) (k : Consts ℝ) (om : T) (p : ℝ) (m : ℝ) (mq : ℝ) (beta : ℝ) (mu : ℝ) (f0 : ℝ) : List ℂ :=
  [qcd.thermal.gluon.dressing_l_inv_landau ig k om p m mq beta mu f0,
   qcd.thermal.gluon.dressing_t_inv_landau ig k om p m mq beta mu f0,
   qcd.thermal.gluon.dressing_l_landau ig k om p m mq beta mu f0,
   qcd.thermal.gluon.dressing_t_landau ig k om p m mq beta mu f0,
   qcd.thermal.gluon.propagator_l_landau ig k om p m mq beta mu f0,
   qcd.thermal.gluon.propagator_t_landau ig k om p m mq beta mu f0]

/-- `qcd::thermal::gluon`, at zero temperature and finite density. -/
noncomputable def qcd.thermal.gluon.zeroTempValues {T : Type} [Num T] (ig : Integrator) (k : Consts ℝ) (om : T) (p : ℝ) (m : ℝ) (mq : ℝ) (mu : ℝ) (f0 : ℝ) : List ℂ :=
  [qcd.thermal.gluon.dressing_l_inv_zero_temp_landau ig k om p m mq mu f0,
   qcd.thermal.gluon.dressing_t_inv_zero_temp_landau ig k om p m mq mu f0,
   qcd.thermal.gluon.dressing_l_zero_temp_landau ig k om p m mq mu f0,
   qcd.thermal.gluon.dressing_t_zero_temp_landau ig k om p m mq mu f0,
   qcd.thermal.gluon.propagator_l_zero_temp_landau ig k om p m mq mu f0,
   qcd.thermal.gluon.propagator_t_zero_temp_landau ig k om p m mq mu f0]

/-- `qcd::thermal::gluon`, at finite temperature, for a field configuration. -/
noncomputable def qcd.thermal.gluon.configValues {T : Type} [Num T] (ig : Integrator) (k : Consts ℝ) (om : T) (p : ℝ) (beta : ℝ) (mu : ℝ) (f0 : ℝ) (config : FieldConfig) : List ℂ :=
  [qcd.thermal.gluon.dressing_l_inv_landau_w_field_config ig k om p beta mu f0 config,
   qcd.thermal.gluon.dressing_t_inv_landau_w_field_config ig k om p beta mu f0 config,
   qcd.thermal.gluon.dressing_l_landau_w_field_config ig k om p beta mu f0 config,
   qcd.thermal.gluon.dressing_t_landau_w_field_config ig k om p beta mu f0 config,
   qcd.thermal.gluon.propagator_l_landau_w_field_config ig k om p beta mu f0 config,
   qcd.thermal.gluon.propagator_t_landau_w_field_config ig k om p beta mu f0 config]

/-- `qcd::thermal::gluon`, at zero temperature and finite density, for a field configuration. -/
noncomputable def qcd.thermal.gluon.configZeroTempValues {T : Type} [Num T] (ig : Integrator) (k : Consts ℝ) (om : T) (p : ℝ) (mu : ℝ) (f0 : ℝ) (config : FieldConfig) : List ℂ :=
  [qcd.thermal.gluon.dressing_l_inv_zero_temp_landau_w_field_config ig k om p mu f0 config,
   qcd.thermal.gluon.dressing_t_inv_zero_temp_landau_w_field_config ig k om p mu f0 config,
   qcd.thermal.gluon.dressing_l_zero_temp_landau_w_field_config ig k om p mu f0 config,
   qcd.thermal.gluon.dressing_t_zero_temp_landau_w_field_config ig k om p mu f0 config,
   qcd.thermal.gluon.propagator_l_zero_temp_landau_w_field_config ig k om p mu f0 config,
   qcd.thermal.gluon.propagator_t_zero_temp_landau_w_field_config ig k om p mu f0 config]

/-- `qcd::thermal::zero_matsubara::gluon`, at finite temperature. -/
noncomputable def qcd.thermal.zero_matsubara.gluon.values (ig : Integrator) (k : Consts ℝ) (p : ℝ) (m : ℝ) (mq : ℝ) (beta : ℝ) (mu : ℝ) (f0 : ℝ) : List ℝ :=
  [qcd.thermal.zero_matsubara.gluon.dressing_l_inv_landau ig k p m mq beta mu f0,
   qcd.thermal.zero_matsubara.gluon.dressing_t_inv_landau ig k p m mq beta mu f0,
   qcd.thermal.zero_matsubara.gluon.dressing_l_landau ig k p m mq beta mu f0,
   qcd.thermal.zero_matsubara.gluon.dressing_t_landau ig k p m mq beta mu f0,
   qcd.thermal.zero_matsubara.gluon.propagator_l_landau ig k p m mq beta mu f0,
   qcd.thermal.zero_matsubara.gluon.propagator_t_landau ig k p m mq beta mu f0]

/-- `qcd::thermal::zero_matsubara::gluon`, at zero temperature and finite density. -/
noncomputable def qcd.thermal.zero_matsubara.gluon.zeroTempValues (ig : Integrator) (k : Consts ℝ) (p : ℝ) (m : ℝ) (mq : ℝ) (mu : ℝ) (f0 : ℝ) : List ℝ :=
  [qcd.thermal.zero_matsubara.gluon.dressing_l_inv_zero_temp_landau ig k p m mq mu f0,
   qcd.thermal.zero_matsubara.gluon.dressing_t_inv_zero_temp_landau ig k p m mq mu f0,
   qcd.thermal.zero_matsubara.gluon.dressing_l_zero_temp_landau ig k p m mq mu f0,
   qcd.thermal.zero_matsubara.gluon.dressing_t_zero_temp_landau ig k p m mq mu f0,
   qcd.thermal.zero_matsubara.gluon.propagator_l_zero_temp_landau ig k p m mq mu f0,
   qcd.thermal.zero_matsubara.gluon.propagator_t_zero_temp_landau ig k p m mq mu f0]

/-- `qcd::thermal::zero_matsubara::gluon`, at finite temperature, for a field configuration. -/
noncomputable def qcd.thermal.zero_matsubara.gluon.configValues (ig : Integrator) (k : Consts ℝ) (p : ℝ) (beta : ℝ) (mu : ℝ) (f0 : ℝ) (config : FieldConfig) : List ℝ :=
  [qcd.thermal.zero_matsubara.gluon.dressing_l_inv_landau_w_field_config ig k p beta mu f0 config,
   qcd.thermal.zero_matsubara.gluon.dressing_t_inv_landau_w_field_config ig k p beta mu f0 config,
   qcd.thermal.zero_matsubara.gluon.dressing_l_landau_w_field_config ig k p beta mu f0 config,
   qcd.thermal.zero_matsubara.gluon.dressing_t_landau_w_field_config ig k p beta mu f0 config,
   qcd.thermal.zero_matsubara.gluon.propagator_l_landau_w_field_config ig k p beta mu f0 config,
   qcd.thermal.zero_matsubara.gluon.propagator_t_landau_w_field_config ig k p beta mu f0 config]

/-- `qcd::thermal::zero_matsubara::gluon`, at zero temperature and finite density, for a field configuration. -/
noncomputable def qcd.thermal.zero_matsubara.gluon.configZeroTempValues (ig : Integrator) (k : Consts ℝ) (p : ℝ) (mu : ℝ) (f0 : ℝ) (config : FieldConfig) : List ℝ :=
  [qcd.thermal.zero_matsubara.gluon.dressing_l_inv_zero_temp_landau_w_field_config ig k p mu f0 config,
   qcd.thermal.zero_matsubara.gluon.dressing_t_inv_zero_temp_landau_w_field_config ig k p mu f0 config,
   qcd.thermal.zero_matsubara.gluon.dressing_l_zero_temp_landau_w_field_config ig k p mu f0 config,
   qcd.thermal.zero_matsubara.gluon.dressing_t_zero_temp_landau_w_field_config ig k p mu f0 config,
   qcd.thermal.zero_matsubara.gluon.propagator_l_zero_temp_landau_w_field_config ig k p mu f0 config,
   qcd.thermal.zero_matsubara.gluon.propagator_t_zero_temp_landau_w_field_config ig k p mu f0 config]

/-- `qcd::thermal::zero_momentum::gluon`, at finite temperature. -/
noncomputable def qcd.thermal.zero_momentum.gluon.values {T : Type} [Num T] (ig : Integrator) (k : Consts ℝ) (om : T) (m : ℝ) (mq : ℝ) (beta : ℝ) (mu : ℝ) (f0 : ℝ) : List ℂ :=
  [qcd.thermal.zero_momentum.gluon.dressing_l_inv_landau ig k om m mq beta mu f0,
   qcd.thermal.zero_momentum.gluon.dressing_t_inv_landau ig k om m mq beta mu f0,
   qcd.thermal.zero_momentum.gluon.dressing_l_landau ig k om m mq beta mu f0,
   qcd.thermal.zero_momentum.gluon.dressing_t_landau ig k om m mq beta mu f0,
   qcd.thermal.zero_momentum.gluon.propagator_l_landau ig k om m mq beta mu f0,
   qcd.thermal.zero_momentum.gluon.propagator_t_landau ig k om m mq beta mu f0]

/-- `qcd::thermal::zero_momentum::gluon`, at zero temperature and finite density. -/
noncomputable def qcd.thermal.zero_momentum.gluon.zeroTempValues {T : Type} [Num T] (ig : Integrator) (k : Consts ℝ) (om : T) (m : ℝ) (mq : ℝ) (mu : ℝ) (f0 : ℝ) : List ℂ :=
  [qcd.thermal.zero_momentum.gluon.dressing_l_inv_zero_temp_landau ig k om m mq mu f0,
   qcd.thermal.zero_momentum.gluon.dressing_t_inv_zero_temp_landau ig k om m mq mu f0,
   qcd.thermal.zero_momentum.gluon.dressing_l_zero_temp_landau ig k om m mq mu f0,
   qcd.thermal.zero_momentum.gluon.dressing_t_zero_temp_landau ig k om m mq mu f0,
   qcd.thermal.zero_momentum.gluon.propagator_l_zero_temp_landau ig k om m mq mu f0,
   qcd.thermal.zero_momentum.gluon.propagator_t_zero_temp_landau ig k om m mq mu f0]

/-- `qcd::thermal::zero_momentum::gluon`, at finite temperature, for a field configuration. -/
noncomputable def qcd.thermal.zero_momentum.gluon.configValues {T : Type} [Num T] (ig : Integrator) (k : Consts ℝ) (om : T) (beta : ℝ) (mu : ℝ) (f0 : ℝ) (config : FieldConfig) : List ℂ :=
  [qcd.thermal.zero_momentum.gluon.dressing_l_inv_landau_w_field_config ig k om beta mu f0 config,
   qcd.thermal.zero_momentum.gluon.dressing_t_inv_landau_w_field_config ig k om beta mu f0 config,
   qcd.thermal.zero_momentum.gluon.dressing_l_landau_w_field_config ig k om beta mu f0 config,
   qcd.thermal.zero_momentum.gluon.dressing_t_landau_w_field_config ig k om beta mu f0 config,
   qcd.thermal.zero_momentum.gluon.propagator_l_landau_w_field_config ig k om beta mu f0 config,
   qcd.thermal.zero_momentum.gluon.propagator_t_landau_w_field_config ig k om beta mu f0 config]

/-- `qcd::thermal::zero_momentum::gluon`, at zero temperature and finite density, for a field configuration. -/
noncomputable def qcd.thermal.zero_momentum.gluon.configZeroTempValues {T : Type} [Num T] (ig : Integrator) (k : Consts ℝ) (om : T) (mu : ℝ) (f0 : ℝ) (config : FieldConfig) : List ℂ :=
  [qcd.thermal.zero_momentum.gluon.dressing_l_inv_zero_temp_landau_w_field_config ig k om mu f0 config,
   qcd.thermal.zero_momentum.gluon.dressing_t_inv_zero_temp_landau_w_field_config ig k om mu f0 config,
   qcd.thermal.zero_momentum.gluon.dressing_l_zero_temp_landau_w_field_config ig k om mu f0 config,
   qcd.thermal.zero_momentum.gluon.dressing_t_zero_temp_landau_w_field_config ig k om mu f0 config,
   qcd.thermal.zero_momentum.gluon.propagator_l_zero_temp_landau_w_field_config ig k om mu f0 config,
   qcd.thermal.zero_momentum.gluon.propagator_t_zero_temp_landau_w_field_config ig k om mu f0 config]

end Qcd
