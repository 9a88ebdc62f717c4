import Verif.Model.ThermalIntegrals
import Verif.Model.Qcd

/-! # Thermal dressing functions and propagators: `ym/thermal.rs`, `qcd/thermal.rs`

Transcribed by `tools/rs2lean_wrappers.py`. `qcd::thermal::ghost` (qcd/thermal.rs l.3-5, 367-369,
636-638) re-exports `ym::thermal::ghost` and is not repeated. The iterator `.map(..).sum()` is
`List.map`/`List.sum`: in exact arithmetic the order of summation is immaterial. -/

namespace Qcd
open consts (Consts)

/-- `const PREFACTOR: R = (16. * PI * PI) / 3.`, repeated in every module of ym/thermal.rs
(l.7, 35, 79, 107, 153, 180) and qcd/thermal.rs (l.15, 378, 648). -/
noncomputable def PREFACTOR : ℝ := (16 * Real.pi * Real.pi) / 3

namespace ym.thermal.ghost

/-- ym/thermal.rs l.9-14. -/
noncomputable def dressing_inv_landau {T : Type} [Num T] (ig : Integrator) (k : Consts ℝ) (om : T) (p : ℝ) (m : ℝ) (beta : ℝ) (g0 : ℝ) : ℂ :=
  let sdim : T := om * om + (ofR (p * p) : T)
  let s : T := sdim / (ofR (m * m) : T)
  toC (Qcd.ghost.dressing_inv_landau s g0) + toC (sdim⁻¹ * (ofR PREFACTOR : T)) * Qcd.ghost.thermal.self_energy_thermal_part_landau ig k om p m beta

/-- ym/thermal.rs l.16-18. -/
noncomputable def dressing_landau (ig : Integrator) (k : Consts ℝ) (om : ℝ) (p : ℝ) (m : ℝ) (beta : ℝ) (g0 : ℝ) : ℂ :=
  (dressing_inv_landau ig k om p m beta g0)⁻¹

/-- ym/thermal.rs l.20-22. -/
noncomputable def propagator_landau (ig : Integrator) (k : Consts ℝ) (om : ℝ) (p : ℝ) (m : ℝ) (beta : ℝ) (g0 : ℝ) : ℂ :=
  (ofR (om * om + p * p)⁻¹ : ℂ) * dressing_landau ig k om p m beta g0

end ym.thermal.ghost

namespace ym.thermal.gluon

/-- ym/thermal.rs l.37-42. -/
noncomputable def dressing_l_inv_landau {T : Type} [Num T] (ig : Integrator) (k : Consts ℝ) (om : T) (p : ℝ) (m : ℝ) (beta : ℝ) (f0 : ℝ) : ℂ :=
  let sdim : T := om * om + (ofR (p * p) : T)
  let s : T := sdim / (ofR (m * m) : T)
  toC (Qcd.ym.gluon.dressing_inv_landau s f0) - toC (sdim⁻¹ * (ofR PREFACTOR : T)) * Qcd.gluon.thermal.polarization_glue_l_thermal_part_landau ig k om p m beta

/-- ym/thermal.rs l.44-49. -/
noncomputable def dressing_t_inv_landau {T : Type} [Num T] (ig : Integrator) (k : Consts ℝ) (om : T) (p : ℝ) (m : ℝ) (beta : ℝ) (f0 : ℝ) : ℂ :=
  let sdim : T := om * om + (ofR (p * p) : T)
  let s : T := sdim / (ofR (m * m) : T)
  toC (Qcd.ym.gluon.dressing_inv_landau s f0) - toC (sdim⁻¹ * (ofR PREFACTOR : T)) * Qcd.gluon.thermal.polarization_glue_t_thermal_part_landau ig k om p m beta

/-- ym/thermal.rs l.51-53. -/
noncomputable def dressing_l_landau {T : Type} [Num T] (ig : Integrator) (k : Consts ℝ) (om : T) (p : ℝ) (m : ℝ) (beta : ℝ) (f0 : ℝ) : ℂ :=
  (dressing_l_inv_landau ig k om p m beta f0)⁻¹

/-- ym/thermal.rs l.55-57. -/
noncomputable def dressing_t_landau {T : Type} [Num T] (ig : Integrator) (k : Consts ℝ) (om : T) (p : ℝ) (m : ℝ) (beta : ℝ) (f0 : ℝ) : ℂ :=
  (dressing_t_inv_landau ig k om p m beta f0)⁻¹

/-- ym/thermal.rs l.59-61. -/
noncomputable def propagator_l_landau {T : Type} [Num T] (ig : Integrator) (k : Consts ℝ) (om : T) (p : ℝ) (m : ℝ) (beta : ℝ) (f0 : ℝ) : ℂ :=
  toC (om * om + (ofR (p * p) : T))⁻¹ * dressing_l_landau ig k om p m beta f0

/-- ym/thermal.rs l.63-65. -/
noncomputable def propagator_t_landau {T : Type} [Num T] (ig : Integrator) (k : Consts ℝ) (om : T) (p : ℝ) (m : ℝ) (beta : ℝ) (f0 : ℝ) : ℂ :=
  toC (om * om + (ofR (p * p) : T))⁻¹ * dressing_t_landau ig k om p m beta f0

end ym.thermal.gluon

namespace ym.thermal.zero_matsubara.ghost

/-- ym/thermal.rs l.79-84. -/
noncomputable def dressing_inv_landau (ig : Integrator) (k : Consts ℝ) (p : ℝ) (m : ℝ) (beta : ℝ) (g0 : ℝ) : ℝ :=
  let sdim : ℝ := p * p
  let s : ℝ := sdim / (m * m)
  Qcd.ghost.dressing_inv_landau s g0 + PREFACTOR * Qcd.ghost.thermal.zero_matsubara.self_energy_thermal_part_landau ig k p m beta / sdim

/-- ym/thermal.rs l.86-88. -/
noncomputable def dressing_landau (ig : Integrator) (k : Consts ℝ) (p : ℝ) (m : ℝ) (beta : ℝ) (g0 : ℝ) : ℝ :=
  1 / dressing_inv_landau ig k p m beta g0

/-- ym/thermal.rs l.90-92. -/
noncomputable def propagator_landau (ig : Integrator) (k : Consts ℝ) (p : ℝ) (m : ℝ) (beta : ℝ) (g0 : ℝ) : ℝ :=
  dressing_landau ig k p m beta g0 / (p * p)

end ym.thermal.zero_matsubara.ghost

namespace ym.thermal.zero_matsubara.gluon

/-- ym/thermal.rs l.107-112. -/
noncomputable def dressing_l_inv_landau (ig : Integrator) (k : Consts ℝ) (p : ℝ) (m : ℝ) (beta : ℝ) (f0 : ℝ) : ℝ :=
  let sdim : ℝ := p * p
  let s : ℝ := sdim / (m * m)
  Qcd.ym.gluon.dressing_inv_landau s f0 - PREFACTOR * Qcd.gluon.thermal.zero_matsubara.polarization_glue_l_thermal_part_landau ig k p m beta / sdim

/-- ym/thermal.rs l.114-119. -/
noncomputable def dressing_t_inv_landau (ig : Integrator) (k : Consts ℝ) (p : ℝ) (m : ℝ) (beta : ℝ) (f0 : ℝ) : ℝ :=
  let sdim : ℝ := p * p
  let s : ℝ := sdim / (m * m)
  Qcd.ym.gluon.dressing_inv_landau s f0 - PREFACTOR * Qcd.gluon.thermal.zero_matsubara.polarization_glue_t_thermal_part_landau ig k p m beta / sdim

/-- ym/thermal.rs l.121-123. -/
noncomputable def dressing_l_landau (ig : Integrator) (k : Consts ℝ) (p : ℝ) (m : ℝ) (beta : ℝ) (f0 : ℝ) : ℝ :=
  1 / dressing_l_inv_landau ig k p m beta f0

/-- ym/thermal.rs l.125-127. -/
noncomputable def dressing_t_landau (ig : Integrator) (k : Consts ℝ) (p : ℝ) (m : ℝ) (beta : ℝ) (f0 : ℝ) : ℝ :=
  1 / dressing_t_inv_landau ig k p m beta f0

/-- ym/thermal.rs l.129-131. -/
noncomputable def propagator_l_landau (ig : Integrator) (k : Consts ℝ) (p : ℝ) (m : ℝ) (beta : ℝ) (f0 : ℝ) : ℝ :=
  dressing_l_landau ig k p m beta f0 / (p * p)

/-- ym/thermal.rs l.133-135. -/
noncomputable def propagator_t_landau (ig : Integrator) (k : Consts ℝ) (p : ℝ) (m : ℝ) (beta : ℝ) (f0 : ℝ) : ℝ :=
  dressing_t_landau ig k p m beta f0 / (p * p)

end ym.thermal.zero_matsubara.gluon

namespace ym.thermal.zero_momentum.ghost

/-- ym/thermal.rs l.150-155. -/
noncomputable def dressing_inv_landau {T : Type} [Num T] (ig : Integrator) (k : Consts ℝ) (om : T) (m : ℝ) (beta : ℝ) (g0 : ℝ) : ℂ :=
  let sdim : T := om * om
  let s : T := sdim / (ofR (m * m) : T)
  toC (Qcd.ghost.dressing_inv_landau s g0) + toC (sdim⁻¹ * (ofR PREFACTOR : T)) * Qcd.ghost.thermal.zero_momentum.self_energy_thermal_part_landau ig k om m beta

/-- ym/thermal.rs l.157-159. -/
noncomputable def dressing_landau {T : Type} [Num T] (ig : Integrator) (k : Consts ℝ) (om : T) (m : ℝ) (beta : ℝ) (g0 : ℝ) : ℂ :=
  (ofR 1 : ℂ) / dressing_inv_landau ig k om m beta g0

/-- ym/thermal.rs l.161-163. -/
noncomputable def propagator_landau {T : Type} [Num T] (ig : Integrator) (k : Consts ℝ) (om : T) (m : ℝ) (beta : ℝ) (g0 : ℝ) : ℂ :=
  toC (om * om)⁻¹ * dressing_landau ig k om m beta g0

end ym.thermal.zero_momentum.ghost

namespace ym.thermal.zero_momentum.gluon

/-- ym/thermal.rs l.176-181. -/
noncomputable def dressing_l_inv_landau {T : Type} [Num T] (ig : Integrator) (k : Consts ℝ) (om : T) (m : ℝ) (beta : ℝ) (f0 : ℝ) : ℂ :=
  let sdim : T := om * om
  let s : T := sdim / (ofR (m * m) : T)
  toC (Qcd.ym.gluon.dressing_inv_landau s f0) - toC (sdim⁻¹ * (ofR PREFACTOR : T)) * Qcd.gluon.thermal.zero_momentum.polarization_glue_l_thermal_part_landau ig k om m beta

/-- ym/thermal.rs l.183-185. -/
noncomputable def dressing_t_inv_landau {T : Type} [Num T] (ig : Integrator) (k : Consts ℝ) (om : T) (m : ℝ) (beta : ℝ) (f0 : ℝ) : ℂ :=
  dressing_l_inv_landau ig k om m beta f0

/-- ym/thermal.rs l.187-189. -/
noncomputable def dressing_l_landau {T : Type} [Num T] (ig : Integrator) (k : Consts ℝ) (om : T) (m : ℝ) (beta : ℝ) (f0 : ℝ) : ℂ :=
  (ofR 1 : ℂ) / dressing_l_inv_landau ig k om m beta f0

/-- ym/thermal.rs l.191-193. -/
noncomputable def dressing_t_landau {T : Type} [Num T] (ig : Integrator) (k : Consts ℝ) (om : T) (m : ℝ) (beta : ℝ) (f0 : ℝ) : ℂ :=
  (ofR 1 : ℂ) / dressing_t_inv_landau ig k om m beta f0

/-- ym/thermal.rs l.195-197. -/
noncomputable def propagator_l_landau {T : Type} [Num T] (ig : Integrator) (k : Consts ℝ) (om : T) (m : ℝ) (beta : ℝ) (f0 : ℝ) : ℂ :=
  toC (om * om)⁻¹ * dressing_l_landau ig k om m beta f0

/-- ym/thermal.rs l.199-201. -/
noncomputable def propagator_t_landau {T : Type} [Num T] (ig : Integrator) (k : Consts ℝ) (om : T) (m : ℝ) (beta : ℝ) (f0 : ℝ) : ℂ :=
  toC (om * om)⁻¹ * dressing_t_landau ig k om m beta f0

end ym.thermal.zero_momentum.gluon

namespace qcd.thermal.gluon

/-- qcd/thermal.rs l.17-28. -/
noncomputable def dressing_l_inv_landau {T : Type} [Num T] (ig : Integrator) (k : Consts ℝ) (om : T) (p : ℝ) (m : ℝ) (mq : ℝ) (beta : ℝ) (mu : ℝ) (f0 : ℝ) : ℂ :=
  let sdim : T := om * om + (ofR (p * p) : T)
  let s : T := sdim / (ofR (m * m) : T)
  toC (Qcd.qcd.gluon.dressing_inv_landau k s (mq / m) f0) - toC (sdim⁻¹ * (ofR PREFACTOR : T)) * (Qcd.gluon.thermal.polarization_glue_l_thermal_part_landau ig k om p m beta + (ofR (k.nf : ℝ) : ℂ) * Qcd.gluon.thermal.polarization_quark_l_thermal_part_landau ig k om p mq beta mu)

/-- qcd/thermal.rs l.30-41. -/
noncomputable def dressing_t_inv_landau {T : Type} [Num T] (ig : Integrator) (k : Consts ℝ) (om : T) (p : ℝ) (m : ℝ) (mq : ℝ) (beta : ℝ) (mu : ℝ) (f0 : ℝ) : ℂ :=
  let sdim : T := om * om + (ofR (p * p) : T)
  let s : T := sdim / (ofR (m * m) : T)
  toC (Qcd.qcd.gluon.dressing_inv_landau k s (mq / m) f0) - toC (sdim⁻¹ * (ofR PREFACTOR : T)) * (Qcd.gluon.thermal.polarization_glue_t_thermal_part_landau ig k om p m beta + (ofR (k.nf : ℝ) : ℂ) * Qcd.gluon.thermal.polarization_quark_t_thermal_part_landau ig k om p mq beta mu)

/-- qcd/thermal.rs l.43-45. -/
noncomputable def dressing_l_landau {T : Type} [Num T] (ig : Integrator) (k : Consts ℝ) (om : T) (p : ℝ) (m : ℝ) (mq : ℝ) (beta : ℝ) (mu : ℝ) (f0 : ℝ) : ℂ :=
  (dressing_l_inv_landau ig k om p m mq beta mu f0)⁻¹

/-- qcd/thermal.rs l.47-49. -/
noncomputable def dressing_t_landau {T : Type} [Num T] (ig : Integrator) (k : Consts ℝ) (om : T) (p : ℝ) (m : ℝ) (mq : ℝ) (beta : ℝ) (mu : ℝ) (f0 : ℝ) : ℂ :=
  (dressing_t_inv_landau ig k om p m mq beta mu f0)⁻¹

/-- qcd/thermal.rs l.51-53. -/
noncomputable def propagator_l_landau {T : Type} [Num T] (ig : Integrator) (k : Consts ℝ) (om : T) (p : ℝ) (m : ℝ) (mq : ℝ) (beta : ℝ) (mu : ℝ) (f0 : ℝ) : ℂ :=
  toC (om * om + (ofR (p * p) : T))⁻¹ * dressing_l_landau ig k om p m mq beta mu f0

/-- qcd/thermal.rs l.55-57. -/
noncomputable def propagator_t_landau {T : Type} [Num T] (ig : Integrator) (k : Consts ℝ) (om : T) (p : ℝ) (m : ℝ) (mq : ℝ) (beta : ℝ) (mu : ℝ) (f0 : ℝ) : ℂ :=
  toC (om * om + (ofR (p * p) : T))⁻¹ * dressing_t_landau ig k om p m mq beta mu f0

/-- qcd/thermal.rs l.59-69. -/
noncomputable def dressing_l_inv_zero_temp_landau {T : Type} [Num T] (ig : Integrator) (k : Consts ℝ) (om : T) (p : ℝ) (m : ℝ) (mq : ℝ) (mu : ℝ) (f0 : ℝ) : ℂ :=
  let sdim : T := om * om + (ofR (p * p) : T)
  let s : T := sdim / (ofR (m * m) : T)
  toC (Qcd.qcd.gluon.dressing_inv_landau k s (mq / m) f0) - toC (sdim⁻¹ * (ofR PREFACTOR : T) * (ofR (k.nf : ℝ) : T)) * Qcd.gluon.thermal.polarization_quark_l_thermal_part_zero_temp_landau ig k om p mq mu

/-- qcd/thermal.rs l.71-81. -/
noncomputable def dressing_t_inv_zero_temp_landau {T : Type} [Num T] (ig : Integrator) (k : Consts ℝ) (om : T) (p : ℝ) (m : ℝ) (mq : ℝ) (mu : ℝ) (f0 : ℝ) : ℂ :=
  let sdim : T := om * om + (ofR (p * p) : T)
  let s : T := sdim / (ofR (m * m) : T)
  toC (Qcd.qcd.gluon.dressing_inv_landau k s (mq / m) f0) - toC (sdim⁻¹ * (ofR PREFACTOR : T) * (ofR (k.nf : ℝ) : T)) * Qcd.gluon.thermal.polarization_quark_t_thermal_part_zero_temp_landau ig k om p mq mu

/-- qcd/thermal.rs l.83-85. -/
noncomputable def dressing_l_zero_temp_landau {T : Type} [Num T] (ig : Integrator) (k : Consts ℝ) (om : T) (p : ℝ) (m : ℝ) (mq : ℝ) (mu : ℝ) (f0 : ℝ) : ℂ :=
  (dressing_l_inv_zero_temp_landau ig k om p m mq mu f0)⁻¹

/-- qcd/thermal.rs l.87-89. -/
noncomputable def dressing_t_zero_temp_landau {T : Type} [Num T] (ig : Integrator) (k : Consts ℝ) (om : T) (p : ℝ) (m : ℝ) (mq : ℝ) (mu : ℝ) (f0 : ℝ) : ℂ :=
  (dressing_t_inv_zero_temp_landau ig k om p m mq mu f0)⁻¹

/-- qcd/thermal.rs l.91-93. -/
noncomputable def propagator_l_zero_temp_landau {T : Type} [Num T] (ig : Integrator) (k : Consts ℝ) (om : T) (p : ℝ) (m : ℝ) (mq : ℝ) (mu : ℝ) (f0 : ℝ) : ℂ :=
  toC (om * om + (ofR (p * p) : T))⁻¹ * dressing_l_zero_temp_landau ig k om p m mq mu f0

/-- qcd/thermal.rs l.95-97. -/
noncomputable def propagator_t_zero_temp_landau {T : Type} [Num T] (ig : Integrator) (k : Consts ℝ) (om : T) (p : ℝ) (m : ℝ) (mq : ℝ) (mu : ℝ) (f0 : ℝ) : ℂ :=
  toC (om * om + (ofR (p * p) : T))⁻¹ * dressing_t_zero_temp_landau ig k om p m mq mu f0

/-- qcd/thermal.rs l.99-124. -/
noncomputable def dressing_l_inv_landau_w_field_config {T1 T2 : Type} [Num T1] [Num T2] (ig : Integrator) (k : Consts ℝ) (om : T1) (p : T2) (beta : ℝ) (mu : ℝ) (f0 : ℝ) (config : FieldConfig) : ℂ :=
  let m : ℝ := config.gluon
  let sdim : ℂ := toC (om * om) + toC (p * p)
  let s : ℂ := sdim / (ofR (m * m) : ℂ)
  let quark_contribution : ℂ := (config.quarks_internal.map (fun qi => Qcd.gluon.thermal.polarization_quark_l_thermal_part_landau ig k om p qi.mq beta mu * (ofR (qi.nf : ℝ) : ℂ))).sum
  Qcd.qcd.gluon.dressing_inv_landau_w_field_config k s f0 config - sdim⁻¹ * (ofR PREFACTOR : ℂ) * (Qcd.gluon.thermal.polarization_glue_l_thermal_part_landau ig k om p m beta + quark_contribution)

/-- qcd/thermal.rs l.126-151. -/
noncomputable def dressing_t_inv_landau_w_field_config {T : Type} [Num T] (ig : Integrator) (k : Consts ℝ) (om : T) (p : ℝ) (beta : ℝ) (mu : ℝ) (f0 : ℝ) (config : FieldConfig) : ℂ :=
  let m : ℝ := config.gluon
  let sdim : T := om * om + (ofR (p * p) : T)
  let s : T := sdim / (ofR (m * m) : T)
  let quark_contribution : ℂ := (config.quarks_internal.map (fun qi => Qcd.gluon.thermal.polarization_quark_t_thermal_part_landau ig k om p qi.mq beta mu * (ofR (qi.nf : ℝ) : ℂ))).sum
  toC (Qcd.qcd.gluon.dressing_inv_landau_w_field_config k s f0 config) - toC (sdim⁻¹ * (ofR PREFACTOR : T)) * (Qcd.gluon.thermal.polarization_glue_t_thermal_part_landau ig k om p m beta + quark_contribution)

/-- qcd/thermal.rs l.153-162. -/
noncomputable def dressing_l_landau_w_field_config {T1 T2 : Type} [Num T1] [Num T2] (ig : Integrator) (k : Consts ℝ) (om : T1) (p : T2) (beta : ℝ) (mu : ℝ) (f0 : ℝ) (config : FieldConfig) : ℂ :=
  (dressing_l_inv_landau_w_field_config ig k om p beta mu f0 config)⁻¹

/-- qcd/thermal.rs l.164-173. -/
noncomputable def dressing_t_landau_w_field_config {T : Type} [Num T] (ig : Integrator) (k : Consts ℝ) (om : T) (p : ℝ) (beta : ℝ) (mu : ℝ) (f0 : ℝ) (config : FieldConfig) : ℂ :=
  (dressing_t_inv_landau_w_field_config ig k om p beta mu f0 config)⁻¹

/-- qcd/thermal.rs l.175-185. -/
noncomputable def propagator_l_landau_w_field_config {T1 T2 : Type} [Num T1] [Num T2] (ig : Integrator) (k : Consts ℝ) (om : T1) (p : T2) (beta : ℝ) (mu : ℝ) (f0 : ℝ) (config : FieldConfig) : ℂ :=
  (toC (om * om) + toC (p * p))⁻¹ * dressing_l_landau_w_field_config ig k om p beta mu f0 config

/-- qcd/thermal.rs l.187-196. -/
noncomputable def propagator_t_landau_w_field_config {T : Type} [Num T] (ig : Integrator) (k : Consts ℝ) (om : T) (p : ℝ) (beta : ℝ) (mu : ℝ) (f0 : ℝ) (config : FieldConfig) : ℂ :=
  toC (om * om + (ofR (p * p) : T))⁻¹ * dressing_t_landau_w_field_config ig k om p beta mu f0 config

/-- qcd/thermal.rs l.198-219. -/
noncomputable def dressing_l_inv_zero_temp_landau_w_field_config {T1 T2 : Type} [Num T1] [Num T2] (ig : Integrator) (k : Consts ℝ) (om : T1) (p : T2) (mu : ℝ) (f0 : ℝ) (config : FieldConfig) : ℂ :=
  let m : ℝ := config.gluon
  let sdim : ℂ := toC (om * om) + toC (p * p)
  let s : ℂ := sdim / (ofR (m * m) : ℂ)
  let quark_contribution : ℂ := (config.quarks_internal.map (fun qi => Qcd.gluon.thermal.polarization_quark_l_thermal_part_zero_temp_landau ig k om p qi.mq mu * (ofR (qi.nf : ℝ) : ℂ))).sum
  Qcd.qcd.gluon.dressing_inv_landau_w_field_config k s f0 config - sdim⁻¹ * (ofR PREFACTOR : ℂ) * quark_contribution

/-- qcd/thermal.rs l.221-242. -/
noncomputable def dressing_t_inv_zero_temp_landau_w_field_config {T : Type} [Num T] (ig : Integrator) (k : Consts ℝ) (om : T) (p : ℝ) (mu : ℝ) (f0 : ℝ) (config : FieldConfig) : ℂ :=
  let m : ℝ := config.gluon
  let sdim : T := om * om + (ofR (p * p) : T)
  let s : T := sdim / (ofR (m * m) : T)
  let quark_contribution : ℂ := (config.quarks_internal.map (fun qi => Qcd.gluon.thermal.polarization_quark_t_thermal_part_zero_temp_landau ig k om p qi.mq mu * (ofR (qi.nf : ℝ) : ℂ))).sum
  toC (Qcd.qcd.gluon.dressing_inv_landau_w_field_config k s f0 config) - toC (sdim⁻¹ * (ofR PREFACTOR : T)) * quark_contribution

/-- qcd/thermal.rs l.244-252. -/
noncomputable def dressing_l_zero_temp_landau_w_field_config {T1 T2 : Type} [Num T1] [Num T2] (ig : Integrator) (k : Consts ℝ) (om : T1) (p : T2) (mu : ℝ) (f0 : ℝ) (config : FieldConfig) : ℂ :=
  (dressing_l_inv_zero_temp_landau_w_field_config ig k om p mu f0 config)⁻¹

/-- qcd/thermal.rs l.254-262. -/
noncomputable def dressing_t_zero_temp_landau_w_field_config {T : Type} [Num T] (ig : Integrator) (k : Consts ℝ) (om : T) (p : ℝ) (mu : ℝ) (f0 : ℝ) (config : FieldConfig) : ℂ :=
  (dressing_t_inv_zero_temp_landau_w_field_config ig k om p mu f0 config)⁻¹

/-- qcd/thermal.rs l.264-273. -/
noncomputable def propagator_l_zero_temp_landau_w_field_config {T1 T2 : Type} [Num T1] [Num T2] (ig : Integrator) (k : Consts ℝ) (om : T1) (p : T2) (mu : ℝ) (f0 : ℝ) (config : FieldConfig) : ℂ :=
  (toC (om * om) + toC (p * p))⁻¹ * dressing_l_zero_temp_landau_w_field_config ig k om p mu f0 config

/-- qcd/thermal.rs l.275-283. -/
noncomputable def propagator_t_zero_temp_landau_w_field_config {T : Type} [Num T] (ig : Integrator) (k : Consts ℝ) (om : T) (p : ℝ) (mu : ℝ) (f0 : ℝ) (config : FieldConfig) : ℂ :=
  toC (om * om + (ofR (p * p) : T))⁻¹ * dressing_t_zero_temp_landau_w_field_config ig k om p mu f0 config

end qcd.thermal.gluon

namespace qcd.thermal.zero_matsubara.gluon

/-- qcd/thermal.rs l.380-392. -/
noncomputable def dressing_l_inv_landau (ig : Integrator) (k : Consts ℝ) (p : ℝ) (m : ℝ) (mq : ℝ) (beta : ℝ) (mu : ℝ) (f0 : ℝ) : ℝ :=
  let sdim : ℝ := p * p
  let s : ℝ := sdim / (m * m)
  Qcd.qcd.gluon.dressing_inv_landau k s (mq / m) f0 - PREFACTOR * ((k.nf : ℝ) * Qcd.gluon.thermal.zero_matsubara.polarization_quark_l_thermal_part_landau ig k p mq beta mu + Qcd.gluon.thermal.zero_matsubara.polarization_glue_l_thermal_part_landau ig k p m beta) / sdim

/-- qcd/thermal.rs l.394-406. -/
noncomputable def dressing_t_inv_landau (ig : Integrator) (k : Consts ℝ) (p : ℝ) (m : ℝ) (mq : ℝ) (beta : ℝ) (mu : ℝ) (f0 : ℝ) : ℝ :=
  let sdim : ℝ := p * p
  let s : ℝ := sdim / (m * m)
  Qcd.qcd.gluon.dressing_inv_landau k s (mq / m) f0 - PREFACTOR * ((k.nf : ℝ) * Qcd.gluon.thermal.zero_matsubara.polarization_quark_t_thermal_part_landau ig k p mq beta mu + Qcd.gluon.thermal.zero_matsubara.polarization_glue_t_thermal_part_landau ig k p m beta) / sdim

/-- qcd/thermal.rs l.408-410. -/
noncomputable def dressing_l_landau (ig : Integrator) (k : Consts ℝ) (p : ℝ) (m : ℝ) (mq : ℝ) (beta : ℝ) (mu : ℝ) (f0 : ℝ) : ℝ :=
  1 / dressing_l_inv_landau ig k p m mq beta mu f0

/-- qcd/thermal.rs l.412-414. -/
noncomputable def dressing_t_landau (ig : Integrator) (k : Consts ℝ) (p : ℝ) (m : ℝ) (mq : ℝ) (beta : ℝ) (mu : ℝ) (f0 : ℝ) : ℝ :=
  1 / dressing_t_inv_landau ig k p m mq beta mu f0

/-- qcd/thermal.rs l.416-418. -/
noncomputable def propagator_l_landau (ig : Integrator) (k : Consts ℝ) (p : ℝ) (m : ℝ) (mq : ℝ) (beta : ℝ) (mu : ℝ) (f0 : ℝ) : ℝ :=
  dressing_l_landau ig k p m mq beta mu f0 / (p * p)

/-- qcd/thermal.rs l.420-422. -/
noncomputable def propagator_t_landau (ig : Integrator) (k : Consts ℝ) (p : ℝ) (m : ℝ) (mq : ℝ) (beta : ℝ) (mu : ℝ) (f0 : ℝ) : ℝ :=
  dressing_t_landau ig k p m mq beta mu f0 / (p * p)

/-- qcd/thermal.rs l.424-433. -/
noncomputable def dressing_l_inv_zero_temp_landau (ig : Integrator) (k : Consts ℝ) (p : ℝ) (m : ℝ) (mq : ℝ) (mu : ℝ) (f0 : ℝ) : ℝ :=
  let s : ℝ := p * p / (m * m)
  Qcd.qcd.gluon.dressing_inv_landau k s (mq / m) f0 - PREFACTOR * (k.nf : ℝ) * Qcd.gluon.thermal.zero_matsubara.polarization_quark_l_thermal_part_zero_temp_landau ig k p mq mu / (p * p)

/-- qcd/thermal.rs l.435-444. -/
noncomputable def dressing_t_inv_zero_temp_landau (ig : Integrator) (k : Consts ℝ) (p : ℝ) (m : ℝ) (mq : ℝ) (mu : ℝ) (f0 : ℝ) : ℝ :=
  let s : ℝ := p * p / (m * m)
  Qcd.qcd.gluon.dressing_inv_landau k s (mq / m) f0 - PREFACTOR * (k.nf : ℝ) * Qcd.gluon.thermal.zero_matsubara.polarization_quark_t_thermal_part_zero_temp_landau ig k p mq mu / (p * p)

/-- qcd/thermal.rs l.446-448. -/
noncomputable def dressing_l_zero_temp_landau (ig : Integrator) (k : Consts ℝ) (p : ℝ) (m : ℝ) (mq : ℝ) (mu : ℝ) (f0 : ℝ) : ℝ :=
  1 / dressing_l_inv_zero_temp_landau ig k p m mq mu f0

/-- qcd/thermal.rs l.450-452. -/
noncomputable def dressing_t_zero_temp_landau (ig : Integrator) (k : Consts ℝ) (p : ℝ) (m : ℝ) (mq : ℝ) (mu : ℝ) (f0 : ℝ) : ℝ :=
  1 / dressing_t_inv_zero_temp_landau ig k p m mq mu f0

/-- qcd/thermal.rs l.454-456. -/
noncomputable def propagator_l_zero_temp_landau (ig : Integrator) (k : Consts ℝ) (p : ℝ) (m : ℝ) (mq : ℝ) (mu : ℝ) (f0 : ℝ) : ℝ :=
  dressing_l_zero_temp_landau ig k p m mq mu f0 / (p * p)

/-- qcd/thermal.rs l.458-460. -/
noncomputable def propagator_t_zero_temp_landau (ig : Integrator) (k : Consts ℝ) (p : ℝ) (m : ℝ) (mq : ℝ) (mu : ℝ) (f0 : ℝ) : ℝ :=
  dressing_t_zero_temp_landau ig k p m mq mu f0 / (p * p)

/-- qcd/thermal.rs l.462-486. -/
noncomputable def dressing_l_inv_landau_w_field_config (ig : Integrator) (k : Consts ℝ) (p : ℝ) (beta : ℝ) (mu : ℝ) (f0 : ℝ) (config : FieldConfig) : ℝ :=
  let m : ℝ := config.gluon
  let sdim : ℝ := p * p
  let s : ℝ := sdim / (m * m)
  let quark_contribution : ℝ := (config.quarks_internal.map (fun qi => Qcd.gluon.thermal.zero_matsubara.polarization_quark_l_thermal_part_landau ig k p qi.mq beta mu * (qi.nf : ℝ))).sum
  Qcd.qcd.gluon.dressing_inv_landau_w_field_config k s f0 config - PREFACTOR * (Qcd.gluon.thermal.zero_matsubara.polarization_glue_l_thermal_part_landau ig k p m beta + quark_contribution) / sdim

/-- qcd/thermal.rs l.488-512. -/
noncomputable def dressing_t_inv_landau_w_field_config (ig : Integrator) (k : Consts ℝ) (p : ℝ) (beta : ℝ) (mu : ℝ) (f0 : ℝ) (config : FieldConfig) : ℝ :=
  let m : ℝ := config.gluon
  let sdim : ℝ := p * p
  let s : ℝ := sdim / (m * m)
  let quark_contribution : ℝ := (config.quarks_internal.map (fun qi => Qcd.gluon.thermal.zero_matsubara.polarization_quark_t_thermal_part_landau ig k p qi.mq beta mu * (qi.nf : ℝ))).sum
  Qcd.qcd.gluon.dressing_inv_landau_w_field_config k s f0 config - PREFACTOR * (Qcd.gluon.thermal.zero_matsubara.polarization_glue_t_thermal_part_landau ig k p m beta + quark_contribution) / sdim

/-- qcd/thermal.rs l.514-522. -/
noncomputable def dressing_l_landau_w_field_config (ig : Integrator) (k : Consts ℝ) (p : ℝ) (beta : ℝ) (mu : ℝ) (f0 : ℝ) (config : FieldConfig) : ℝ :=
  1 / dressing_l_inv_landau_w_field_config ig k p beta mu f0 config

/-- qcd/thermal.rs l.524-532. -/
noncomputable def dressing_t_landau_w_field_config (ig : Integrator) (k : Consts ℝ) (p : ℝ) (beta : ℝ) (mu : ℝ) (f0 : ℝ) (config : FieldConfig) : ℝ :=
  1 / dressing_t_inv_landau_w_field_config ig k p beta mu f0 config

/-- qcd/thermal.rs l.534-542. -/
noncomputable def propagator_l_landau_w_field_config (ig : Integrator) (k : Consts ℝ) (p : ℝ) (beta : ℝ) (mu : ℝ) (f0 : ℝ) (config : FieldConfig) : ℝ :=
  dressing_l_landau_w_field_config ig k p beta mu f0 config / (p * p)

/-- qcd/thermal.rs l.544-552. -/
noncomputable def propagator_t_landau_w_field_config (ig : Integrator) (k : Consts ℝ) (p : ℝ) (beta : ℝ) (mu : ℝ) (f0 : ℝ) (config : FieldConfig) : ℝ :=
  dressing_t_landau_w_field_config ig k p beta mu f0 config / (p * p)

/-- qcd/thermal.rs l.554-573. -/
noncomputable def dressing_l_inv_zero_temp_landau_w_field_config (ig : Integrator) (k : Consts ℝ) (p : ℝ) (mu : ℝ) (f0 : ℝ) (config : FieldConfig) : ℝ :=
  let m : ℝ := config.gluon
  let s : ℝ := p * p / (m * m)
  let quark_contribution : ℝ := (config.quarks_internal.map (fun qi => Qcd.gluon.thermal.zero_matsubara.polarization_quark_l_thermal_part_zero_temp_landau ig k p qi.mq mu * (qi.nf : ℝ))).sum
  Qcd.qcd.gluon.dressing_inv_landau_w_field_config k s f0 config - PREFACTOR * quark_contribution / (p * p)

/-- qcd/thermal.rs l.575-594. -/
noncomputable def dressing_t_inv_zero_temp_landau_w_field_config (ig : Integrator) (k : Consts ℝ) (p : ℝ) (mu : ℝ) (f0 : ℝ) (config : FieldConfig) : ℝ :=
  let m : ℝ := config.gluon
  let s : ℝ := p * p / (m * m)
  let quark_contribution : ℝ := (config.quarks_internal.map (fun qi => Qcd.gluon.thermal.zero_matsubara.polarization_quark_t_thermal_part_zero_temp_landau ig k p qi.mq mu * (qi.nf : ℝ))).sum
  Qcd.qcd.gluon.dressing_inv_landau_w_field_config k s f0 config - PREFACTOR * quark_contribution / (p * p)

/-- qcd/thermal.rs l.596-603. -/
noncomputable def dressing_l_zero_temp_landau_w_field_config (ig : Integrator) (k : Consts ℝ) (p : ℝ) (mu : ℝ) (f0 : ℝ) (config : FieldConfig) : ℝ :=
  1 / dressing_l_inv_zero_temp_landau_w_field_config ig k p mu f0 config

/-- qcd/thermal.rs l.605-612. -/
noncomputable def dressing_t_zero_temp_landau_w_field_config (ig : Integrator) (k : Consts ℝ) (p : ℝ) (mu : ℝ) (f0 : ℝ) (config : FieldConfig) : ℝ :=
  1 / dressing_t_inv_zero_temp_landau_w_field_config ig k p mu f0 config

/-- qcd/thermal.rs l.614-621. -/
noncomputable def propagator_l_zero_temp_landau_w_field_config (ig : Integrator) (k : Consts ℝ) (p : ℝ) (mu : ℝ) (f0 : ℝ) (config : FieldConfig) : ℝ :=
  dressing_l_zero_temp_landau_w_field_config ig k p mu f0 config / (p * p)

/-- qcd/thermal.rs l.623-630. -/
noncomputable def propagator_t_zero_temp_landau_w_field_config (ig : Integrator) (k : Consts ℝ) (p : ℝ) (mu : ℝ) (f0 : ℝ) (config : FieldConfig) : ℝ :=
  dressing_t_zero_temp_landau_w_field_config ig k p mu f0 config / (p * p)

end qcd.thermal.zero_matsubara.gluon

namespace qcd.thermal.zero_momentum.gluon

/-- qcd/thermal.rs l.651-662. -/
noncomputable def dressing_l_inv_landau {T : Type} [Num T] (ig : Integrator) (k : Consts ℝ) (om : T) (m : ℝ) (mq : ℝ) (beta : ℝ) (mu : ℝ) (f0 : ℝ) : ℂ :=
  let sdim : T := om * om
  let s : T := sdim / (ofR (m * m) : T)
  toC (Qcd.qcd.gluon.dressing_inv_landau k s (mq / m) f0) - toC (sdim⁻¹ * (ofR PREFACTOR : T)) * (Qcd.gluon.thermal.zero_momentum.polarization_glue_l_thermal_part_landau ig k om m beta + (ofR (k.nf : ℝ) : ℂ) * Qcd.gluon.thermal.zero_momentum.polarization_quark_l_thermal_part_landau ig k om mq beta mu)

/-- qcd/thermal.rs l.664-675. -/
noncomputable def dressing_t_inv_landau {T : Type} [Num T] (ig : Integrator) (k : Consts ℝ) (om : T) (m : ℝ) (mq : ℝ) (beta : ℝ) (mu : ℝ) (f0 : ℝ) : ℂ :=
  let sdim : T := om * om
  let s : T := sdim / (ofR (m * m) : T)
  toC (Qcd.qcd.gluon.dressing_inv_landau k s (mq / m) f0) - toC (sdim⁻¹ * (ofR PREFACTOR : T)) * (Qcd.gluon.thermal.zero_momentum.polarization_glue_t_thermal_part_landau ig k om m beta + (ofR (k.nf : ℝ) : ℂ) * Qcd.gluon.thermal.zero_momentum.polarization_quark_t_thermal_part_landau ig k om mq beta mu)

/-- qcd/thermal.rs l.677-679. -/
noncomputable def dressing_l_landau {T : Type} [Num T] (ig : Integrator) (k : Consts ℝ) (om : T) (m : ℝ) (mq : ℝ) (beta : ℝ) (mu : ℝ) (f0 : ℝ) : ℂ :=
  (dressing_l_inv_landau ig k om m mq beta mu f0)⁻¹

/-- qcd/thermal.rs l.681-683. -/
noncomputable def dressing_t_landau {T : Type} [Num T] (ig : Integrator) (k : Consts ℝ) (om : T) (m : ℝ) (mq : ℝ) (beta : ℝ) (mu : ℝ) (f0 : ℝ) : ℂ :=
  (dressing_t_inv_landau ig k om m mq beta mu f0)⁻¹

/-- qcd/thermal.rs l.685-687. -/
noncomputable def propagator_l_landau {T : Type} [Num T] (ig : Integrator) (k : Consts ℝ) (om : T) (m : ℝ) (mq : ℝ) (beta : ℝ) (mu : ℝ) (f0 : ℝ) : ℂ :=
  toC (om * om)⁻¹ * dressing_l_landau ig k om m mq beta mu f0

/-- qcd/thermal.rs l.689-691. -/
noncomputable def propagator_t_landau {T : Type} [Num T] (ig : Integrator) (k : Consts ℝ) (om : T) (m : ℝ) (mq : ℝ) (beta : ℝ) (mu : ℝ) (f0 : ℝ) : ℂ :=
  toC (om * om)⁻¹ * dressing_t_landau ig k om m mq beta mu f0

/-- qcd/thermal.rs l.693-703. -/
noncomputable def dressing_l_inv_zero_temp_landau {T : Type} [Num T] (ig : Integrator) (k : Consts ℝ) (om : T) (m : ℝ) (mq : ℝ) (mu : ℝ) (f0 : ℝ) : ℂ :=
  let sdim : T := om * om
  let s : T := sdim / (ofR (m * m) : T)
  toC (Qcd.qcd.gluon.dressing_inv_landau k s (mq / m) f0) - toC (sdim⁻¹ * (ofR PREFACTOR : T) * (ofR (k.nf : ℝ) : T)) * Qcd.gluon.thermal.zero_momentum.polarization_quark_l_thermal_part_zero_temp_landau ig k om mq mu

/-- qcd/thermal.rs l.705-715. -/
noncomputable def dressing_t_inv_zero_temp_landau {T : Type} [Num T] (ig : Integrator) (k : Consts ℝ) (om : T) (m : ℝ) (mq : ℝ) (mu : ℝ) (f0 : ℝ) : ℂ :=
  let sdim : T := om * om
  let s : T := sdim / (ofR (m * m) : T)
  toC (Qcd.qcd.gluon.dressing_inv_landau k s (mq / m) f0) - toC (sdim⁻¹ * (ofR PREFACTOR : T) * (ofR (k.nf : ℝ) : T)) * Qcd.gluon.thermal.zero_momentum.polarization_quark_t_thermal_part_zero_temp_landau ig k om mq mu

/-- qcd/thermal.rs l.717-719. -/
noncomputable def dressing_l_zero_temp_landau {T : Type} [Num T] (ig : Integrator) (k : Consts ℝ) (om : T) (m : ℝ) (mq : ℝ) (mu : ℝ) (f0 : ℝ) : ℂ :=
  (dressing_l_inv_zero_temp_landau ig k om m mq mu f0)⁻¹

/-- qcd/thermal.rs l.721-723. -/
noncomputable def dressing_t_zero_temp_landau {T : Type} [Num T] (ig : Integrator) (k : Consts ℝ) (om : T) (m : ℝ) (mq : ℝ) (mu : ℝ) (f0 : ℝ) : ℂ :=
  (dressing_t_inv_zero_temp_landau ig k om m mq mu f0)⁻¹

/-- qcd/thermal.rs l.725-727. -/
noncomputable def propagator_l_zero_temp_landau {T : Type} [Num T] (ig : Integrator) (k : Consts ℝ) (om : T) (m : ℝ) (mq : ℝ) (mu : ℝ) (f0 : ℝ) : ℂ :=
  toC (om * om)⁻¹ * dressing_l_zero_temp_landau ig k om m mq mu f0

/-- qcd/thermal.rs l.729-731. -/
noncomputable def propagator_t_zero_temp_landau {T : Type} [Num T] (ig : Integrator) (k : Consts ℝ) (om : T) (m : ℝ) (mq : ℝ) (mu : ℝ) (f0 : ℝ) : ℂ :=
  toC (om * om)⁻¹ * dressing_t_zero_temp_landau ig k om m mq mu f0

/-- qcd/thermal.rs l.733-757. -/
noncomputable def dressing_l_inv_landau_w_field_config {T : Type} [Num T] (ig : Integrator) (k : Consts ℝ) (om : T) (beta : ℝ) (mu : ℝ) (f0 : ℝ) (config : FieldConfig) : ℂ :=
  let m : ℝ := config.gluon
  let sdim : T := om * om
  let s : T := sdim / (ofR (m * m) : T)
  let quark_contribution : ℂ := (config.quarks_internal.map (fun qi => Qcd.gluon.thermal.zero_momentum.polarization_quark_l_thermal_part_landau ig k om qi.mq beta mu * (ofR (qi.nf : ℝ) : ℂ))).sum
  toC (Qcd.qcd.gluon.dressing_inv_landau_w_field_config k s f0 config) - toC (sdim⁻¹ * (ofR PREFACTOR : T)) * (Qcd.gluon.thermal.zero_momentum.polarization_glue_l_thermal_part_landau ig k om m beta + quark_contribution)

/-- qcd/thermal.rs l.759-783. -/
noncomputable def dressing_t_inv_landau_w_field_config {T : Type} [Num T] (ig : Integrator) (k : Consts ℝ) (om : T) (beta : ℝ) (mu : ℝ) (f0 : ℝ) (config : FieldConfig) : ℂ :=
  let m : ℝ := config.gluon
  let sdim : T := om * om
  let s : T := sdim / (ofR (m * m) : T)
  let quark_contribution : ℂ := (config.quarks_internal.map (fun qi => Qcd.gluon.thermal.zero_momentum.polarization_quark_t_thermal_part_landau ig k om qi.mq beta mu * (ofR (qi.nf : ℝ) : ℂ))).sum
  toC (Qcd.qcd.gluon.dressing_inv_landau_w_field_config k s f0 config) - toC (sdim⁻¹ * (ofR PREFACTOR : T)) * (Qcd.gluon.thermal.zero_momentum.polarization_glue_t_thermal_part_landau ig k om m beta + quark_contribution)

/-- qcd/thermal.rs l.785-793. -/
noncomputable def dressing_l_landau_w_field_config {T : Type} [Num T] (ig : Integrator) (k : Consts ℝ) (om : T) (beta : ℝ) (mu : ℝ) (f0 : ℝ) (config : FieldConfig) : ℂ :=
  (dressing_l_inv_landau_w_field_config ig k om beta mu f0 config)⁻¹

/-- qcd/thermal.rs l.795-803. -/
noncomputable def dressing_t_landau_w_field_config {T : Type} [Num T] (ig : Integrator) (k : Consts ℝ) (om : T) (beta : ℝ) (mu : ℝ) (f0 : ℝ) (config : FieldConfig) : ℂ :=
  (dressing_t_inv_landau_w_field_config ig k om beta mu f0 config)⁻¹

/-- qcd/thermal.rs l.805-813. -/
noncomputable def propagator_l_landau_w_field_config {T : Type} [Num T] (ig : Integrator) (k : Consts ℝ) (om : T) (beta : ℝ) (mu : ℝ) (f0 : ℝ) (config : FieldConfig) : ℂ :=
  toC (om * om)⁻¹ * dressing_l_landau_w_field_config ig k om beta mu f0 config

/-- qcd/thermal.rs l.815-823. -/
noncomputable def propagator_t_landau_w_field_config {T : Type} [Num T] (ig : Integrator) (k : Consts ℝ) (om : T) (beta : ℝ) (mu : ℝ) (f0 : ℝ) (config : FieldConfig) : ℂ :=
  toC (om * om)⁻¹ * dressing_t_landau_w_field_config ig k om beta mu f0 config

/-- qcd/thermal.rs l.825-845. -/
noncomputable def dressing_l_inv_zero_temp_landau_w_field_config {T : Type} [Num T] (ig : Integrator) (k : Consts ℝ) (om : T) (mu : ℝ) (f0 : ℝ) (config : FieldConfig) : ℂ :=
  let m : ℝ := config.gluon
  let sdim : T := om * om
  let s : T := sdim / (ofR (m * m) : T)
  let quark_contribution : ℂ := (config.quarks_internal.map (fun qi => Qcd.gluon.thermal.zero_momentum.polarization_quark_l_thermal_part_zero_temp_landau ig k om qi.mq mu * (ofR (qi.nf : ℝ) : ℂ))).sum
  toC (Qcd.qcd.gluon.dressing_inv_landau_w_field_config k s f0 config) - toC (sdim⁻¹ * (ofR PREFACTOR : T)) * quark_contribution

/-- qcd/thermal.rs l.847-867. -/
noncomputable def dressing_t_inv_zero_temp_landau_w_field_config {T : Type} [Num T] (ig : Integrator) (k : Consts ℝ) (om : T) (mu : ℝ) (f0 : ℝ) (config : FieldConfig) : ℂ :=
  let m : ℝ := config.gluon
  let sdim : T := om * om
  let s : T := sdim / (ofR (m * m) : T)
  let quark_contribution : ℂ := (config.quarks_internal.map (fun qi => Qcd.gluon.thermal.zero_momentum.polarization_quark_t_thermal_part_zero_temp_landau ig k om qi.mq mu * (ofR (qi.nf : ℝ) : ℂ))).sum
  toC (Qcd.qcd.gluon.dressing_inv_landau_w_field_config k s f0 config) - toC (sdim⁻¹ * (ofR PREFACTOR : T)) * quark_contribution

/-- qcd/thermal.rs l.869-876. -/
noncomputable def dressing_l_zero_temp_landau_w_field_config {T : Type} [Num T] (ig : Integrator) (k : Consts ℝ) (om : T) (mu : ℝ) (f0 : ℝ) (config : FieldConfig) : ℂ :=
  (dressing_l_inv_zero_temp_landau_w_field_config ig k om mu f0 config)⁻¹

/-- qcd/thermal.rs l.878-885. -/
noncomputable def dressing_t_zero_temp_landau_w_field_config {T : Type} [Num T] (ig : Integrator) (k : Consts ℝ) (om : T) (mu : ℝ) (f0 : ℝ) (config : FieldConfig) : ℂ :=
  (dressing_t_inv_zero_temp_landau_w_field_config ig k om mu f0 config)⁻¹

/-- qcd/thermal.rs l.887-894. -/
noncomputable def propagator_l_zero_temp_landau_w_field_config {T : Type} [Num T] (ig : Integrator) (k : Consts ℝ) (om : T) (mu : ℝ) (f0 : ℝ) (config : FieldConfig) : ℂ :=
  toC (om * om)⁻¹ * dressing_l_zero_temp_landau_w_field_config ig k om mu f0 config

/-- qcd/thermal.rs l.896-903. -/
noncomputable def propagator_t_zero_temp_landau_w_field_config {T : Type} [Num T] (ig : Integrator) (k : Consts ℝ) (om : T) (mu : ℝ) (f0 : ℝ) (config : FieldConfig) : ℂ :=
  toC (om * om)⁻¹ * dressing_t_zero_temp_landau_w_field_config ig k om mu f0 config

end qcd.thermal.zero_momentum.gluon

end Qcd
