import Verif.Model.ThermalParts
import Verif.Model.Integrator

/-! # Integrated thermal parts: `low_level/oneloop/thermal/{ghost,gluon}.rs`, modules `native`

Transcribed by `tools/rs2lean_wrappers.py`. The numerical integrator `ig` (peroxide's `integrate`)
and the global constants `k` are explicit arguments of exactly the functions that use them. -/

namespace Qcd
open consts (Consts Integral get_default_integration_method)

/-- The block `let (mut integral, dti) = ...; if let G7K15(ti, mi) = integral { if ti == dti && mi ==
max_iter_integral() { integral = G7K15(DEFAULT_TOL_INT_REPL, mi) } }`, repeated verbatim in gluon.rs
l.766-773, 777-784, 788-795, 799-806, 810-817, 821-828; `DEFAULT_TOL_INT_REPL` is l.584. -/
noncomputable def zero_matsubara_default_method (k : Consts ℝ) : Integral ℝ :=
  open Classical in
  let integral := get_default_integration_method k
  let dti := k.tol_integral
  match integral with
  | .G7K15 ti mi => if ti = dti ∧ mi = k.max_iter_integral then .G7K15 (1 / 10 ^ 8) mi else integral
  | _ => integral

namespace ghost.thermal

/-- low_level/oneloop/thermal/ghost.rs l.20-32. -/
noncomputable def self_energy_thermal_part_landau_w_method {T : Type} [Num T] (ig : Integrator) (om : T) (p : ℝ) (m : ℝ) (beta : ℝ) (integral : Integral ℝ) : ℂ :=
  ig.cplx (fun t => ghost.thermal.self_energy_thermal_part_landau_i ((1 - t) / t) om p m beta / (ofR (t * t) : ℂ)) (0, 1) integral

/-- low_level/oneloop/thermal/ghost.rs l.34-36. -/
noncomputable def self_energy_thermal_part_landau {T : Type} [Num T] (ig : Integrator) (k : Consts ℝ) (om : T) (p : ℝ) (m : ℝ) (beta : ℝ) : ℂ :=
  self_energy_thermal_part_landau_w_method ig om p m beta (get_default_integration_method k)

namespace zero_matsubara

/-- low_level/oneloop/thermal/ghost.rs l.105-119. -/
noncomputable def self_energy_thermal_part_landau_w_method (ig : Integrator) (p : ℝ) (m : ℝ) (beta : ℝ) (integral : Integral ℝ) : ℝ :=
  ig.real (fun t => (ghost.thermal.zero_matsubara.self_energy_thermal_part_landau_i ((1 - t) / t) p m beta).re / (t * t)) (0, 1) integral

/-- low_level/oneloop/thermal/ghost.rs l.121-123. -/
noncomputable def self_energy_thermal_part_landau (ig : Integrator) (k : Consts ℝ) (p : ℝ) (m : ℝ) (beta : ℝ) : ℝ :=
  self_energy_thermal_part_landau_w_method ig p m beta (get_default_integration_method k)

end zero_matsubara

namespace zero_momentum

/-- low_level/oneloop/thermal/ghost.rs l.176-187. -/
noncomputable def self_energy_thermal_part_landau_w_method {T : Type} [Num T] (ig : Integrator) (om : T) (m : ℝ) (beta : ℝ) (integral : Integral ℝ) : ℂ :=
  ig.cplx (fun t => ghost.thermal.zero_momentum.self_energy_thermal_part_landau_i ((1 - t) / t) om m beta / (ofR (t * t) : ℂ)) (0, 1) integral

/-- low_level/oneloop/thermal/ghost.rs l.189-191. -/
noncomputable def self_energy_thermal_part_landau {T : Type} [Num T] (ig : Integrator) (k : Consts ℝ) (om : T) (m : ℝ) (beta : ℝ) : ℂ :=
  self_energy_thermal_part_landau_w_method ig om m beta (get_default_integration_method k)

end zero_momentum

end ghost.thermal

namespace gluon.thermal

/-- low_level/oneloop/thermal/gluon.rs l.79-94. -/
noncomputable def polarization_glue_l_thermal_part_landau_w_method {T1 T2 : Type} [Num T1] [Num T2] (ig : Integrator) (om : T1) (p : T2) (m : ℝ) (beta : ℝ) (integral : Integral ℝ) : ℂ :=
  ig.cplx (fun t => gluon.thermal.polarization_glue_l_thermal_part_landau_i ((1 - t) / t) om p m beta / (ofR (t * t) : ℂ)) (0, 1) integral

/-- low_level/oneloop/thermal/gluon.rs l.96-111. -/
noncomputable def polarization_glue_t_thermal_part_landau_w_method {T : Type} [Num T] (ig : Integrator) (om : T) (p : ℝ) (m : ℝ) (beta : ℝ) (integral : Integral ℝ) : ℂ :=
  ig.cplx (fun t => gluon.thermal.polarization_glue_t_thermal_part_landau_i ((1 - t) / t) om p m beta / (ofR (t * t) : ℂ)) (0, 1) integral

/-- low_level/oneloop/thermal/gluon.rs l.113-135. -/
noncomputable def polarization_quark_l_thermal_part_landau_w_method {T1 T2 : Type} [Num T1] [Num T2] (ig : Integrator) (k : Consts ℝ) (om : T1) (p : T2) (mq : ℝ) (beta : ℝ) (mu : ℝ) (integral : Integral ℝ) : ℂ :=
  ig.cplx (fun t => gluon.thermal.polarization_quark_l_thermal_part_landau_i k ((1 - t) / t) om p mq beta mu / (ofR (t * t) : ℂ)) (0, 1) integral

/-- low_level/oneloop/thermal/gluon.rs l.137-159. -/
noncomputable def polarization_quark_t_thermal_part_landau_w_method {T : Type} [Num T] (ig : Integrator) (k : Consts ℝ) (om : T) (p : ℝ) (mq : ℝ) (beta : ℝ) (mu : ℝ) (integral : Integral ℝ) : ℂ :=
  ig.cplx (fun t => gluon.thermal.polarization_quark_t_thermal_part_landau_i k ((1 - t) / t) om p mq beta mu / (ofR (t * t) : ℂ)) (0, 1) integral

/-- low_level/oneloop/thermal/gluon.rs l.161-176. -/
noncomputable def polarization_quark_l_thermal_part_zero_temp_landau_w_method {T1 T2 : Type} [Num T1] [Num T2] (ig : Integrator) (k : Consts ℝ) (om : T1) (p : T2) (mq : ℝ) (mu : ℝ) (integral : Integral ℝ) : ℂ :=
  open Classical in
  if |mu| < |mq| then (0 : ℂ) else
  ig.cplx (fun q => gluon.thermal.polarization_quark_l_thermal_part_zero_temp_landau_i k q om p mq mu) (0, fermi_momentum mq mu) integral

/-- low_level/oneloop/thermal/gluon.rs l.178-193. -/
noncomputable def polarization_quark_t_thermal_part_zero_temp_landau_w_method {T : Type} [Num T] (ig : Integrator) (k : Consts ℝ) (om : T) (p : ℝ) (mq : ℝ) (mu : ℝ) (integral : Integral ℝ) : ℂ :=
  open Classical in
  if |mu| < |mq| then (0 : ℂ) else
  ig.cplx (fun q => gluon.thermal.polarization_quark_t_thermal_part_zero_temp_landau_i k q om p mq mu) (0, fermi_momentum mq mu) integral

/-- low_level/oneloop/thermal/gluon.rs l.195-208. -/
noncomputable def polarization_glue_l_thermal_part_landau {T1 T2 : Type} [Num T1] [Num T2] (ig : Integrator) (k : Consts ℝ) (om : T1) (p : T2) (m : ℝ) (beta : ℝ) : ℂ :=
  polarization_glue_l_thermal_part_landau_w_method ig om p m beta (get_default_integration_method k)

/-- low_level/oneloop/thermal/gluon.rs l.210-218. -/
noncomputable def polarization_glue_t_thermal_part_landau {T : Type} [Num T] (ig : Integrator) (k : Consts ℝ) (om : T) (p : ℝ) (m : ℝ) (beta : ℝ) : ℂ :=
  polarization_glue_t_thermal_part_landau_w_method ig om p m beta (get_default_integration_method k)

/-- low_level/oneloop/thermal/gluon.rs l.220-235. -/
noncomputable def polarization_quark_l_thermal_part_landau {T1 T2 : Type} [Num T1] [Num T2] (ig : Integrator) (k : Consts ℝ) (om : T1) (p : T2) (mq : ℝ) (beta : ℝ) (mu : ℝ) : ℂ :=
  polarization_quark_l_thermal_part_landau_w_method ig k om p mq beta mu (get_default_integration_method k)

/-- low_level/oneloop/thermal/gluon.rs l.237-252. -/
noncomputable def polarization_quark_t_thermal_part_landau {T : Type} [Num T] (ig : Integrator) (k : Consts ℝ) (om : T) (p : ℝ) (mq : ℝ) (beta : ℝ) (mu : ℝ) : ℂ :=
  polarization_quark_t_thermal_part_landau_w_method ig k om p mq beta mu (get_default_integration_method k)

/-- low_level/oneloop/thermal/gluon.rs l.254-267. -/
noncomputable def polarization_quark_l_thermal_part_zero_temp_landau {T1 T2 : Type} [Num T1] [Num T2] (ig : Integrator) (k : Consts ℝ) (om : T1) (p : T2) (mq : ℝ) (mu : ℝ) : ℂ :=
  polarization_quark_l_thermal_part_zero_temp_landau_w_method ig k om p mq mu (get_default_integration_method k)

/-- low_level/oneloop/thermal/gluon.rs l.269-282. -/
noncomputable def polarization_quark_t_thermal_part_zero_temp_landau {T : Type} [Num T] (ig : Integrator) (k : Consts ℝ) (om : T) (p : ℝ) (mq : ℝ) (mu : ℝ) : ℂ :=
  polarization_quark_t_thermal_part_zero_temp_landau_w_method ig k om p mq mu (get_default_integration_method k)

namespace zero_matsubara

/-- low_level/oneloop/thermal/gluon.rs l.610-638. -/
noncomputable def polarization_glue_l_thermal_part_landau_w_method (ig : Integrator) (k : Consts ℝ) (p : ℝ) (m : ℝ) (beta : ℝ) (integral : Integral ℝ) : ℝ :=
  ig.real (fun t => (gluon.thermal.polarization_glue_l_thermal_part_landau_i ((1 - t) / t) k.matsubara_reg p m beta).re / (t * t)) (0, 1) integral

/-- low_level/oneloop/thermal/gluon.rs l.640-660. -/
noncomputable def polarization_glue_t_thermal_part_landau_w_method (ig : Integrator) (k : Consts ℝ) (p : ℝ) (m : ℝ) (beta : ℝ) (integral : Integral ℝ) : ℝ :=
  ig.real (fun t => (gluon.thermal.polarization_glue_t_thermal_part_landau_i ((1 - t) / t) k.matsubara_reg p m beta).re / (t * t)) (0, 1) integral

/-- low_level/oneloop/thermal/gluon.rs l.662-684. -/
noncomputable def polarization_quark_l_thermal_part_landau_w_method (ig : Integrator) (k : Consts ℝ) (p : ℝ) (mq : ℝ) (beta : ℝ) (mu : ℝ) (integral : Integral ℝ) : ℝ :=
  ig.real (fun t => (gluon.thermal.polarization_quark_l_thermal_part_landau_i k ((1 - t) / t) k.matsubara_reg p mq beta mu).re / (t * t)) (0, 1) integral

/-- low_level/oneloop/thermal/gluon.rs l.686-708. -/
noncomputable def polarization_quark_t_thermal_part_landau_w_method (ig : Integrator) (k : Consts ℝ) (p : ℝ) (mq : ℝ) (beta : ℝ) (mu : ℝ) (integral : Integral ℝ) : ℝ :=
  ig.real (fun t => (gluon.thermal.polarization_quark_t_thermal_part_landau_i k ((1 - t) / t) k.matsubara_reg p mq beta mu).re / (t * t)) (0, 1) integral

/-- low_level/oneloop/thermal/gluon.rs l.710-733. -/
noncomputable def polarization_quark_l_thermal_part_zero_temp_landau_w_method (ig : Integrator) (k : Consts ℝ) (p : ℝ) (mq : ℝ) (mu : ℝ) (integral : Integral ℝ) : ℝ :=
  open Classical in
  if |mu| < |mq| then 0 else
  ig.real (fun q => (gluon.thermal.polarization_quark_l_thermal_part_zero_temp_landau_i k q k.matsubara_reg p mq mu).re) (0, fermi_momentum mq mu) integral

/-- low_level/oneloop/thermal/gluon.rs l.735-758. -/
noncomputable def polarization_quark_t_thermal_part_zero_temp_landau_w_method (ig : Integrator) (k : Consts ℝ) (p : ℝ) (mq : ℝ) (mu : ℝ) (integral : Integral ℝ) : ℝ :=
  open Classical in
  if |mu| < |mq| then 0 else
  ig.real (fun q => (gluon.thermal.polarization_quark_t_thermal_part_zero_temp_landau_i k q k.matsubara_reg p mq mu).re) (0, fermi_momentum mq mu) integral

/-- low_level/oneloop/thermal/gluon.rs l.766-775. -/
noncomputable def polarization_glue_l_thermal_part_landau (ig : Integrator) (k : Consts ℝ) (p : ℝ) (m : ℝ) (beta : ℝ) : ℝ :=
  let integral : Integral ℝ := zero_matsubara_default_method k
  polarization_glue_l_thermal_part_landau_w_method ig k p m beta integral

/-- low_level/oneloop/thermal/gluon.rs l.777-786. -/
noncomputable def polarization_glue_t_thermal_part_landau (ig : Integrator) (k : Consts ℝ) (p : ℝ) (m : ℝ) (beta : ℝ) : ℝ :=
  let integral : Integral ℝ := zero_matsubara_default_method k
  polarization_glue_t_thermal_part_landau_w_method ig k p m beta integral

/-- low_level/oneloop/thermal/gluon.rs l.788-797. -/
noncomputable def polarization_quark_l_thermal_part_landau (ig : Integrator) (k : Consts ℝ) (p : ℝ) (mq : ℝ) (beta : ℝ) (mu : ℝ) : ℝ :=
  let integral : Integral ℝ := zero_matsubara_default_method k
  polarization_quark_l_thermal_part_landau_w_method ig k p mq beta mu integral

/-- low_level/oneloop/thermal/gluon.rs l.799-808. -/
noncomputable def polarization_quark_t_thermal_part_landau (ig : Integrator) (k : Consts ℝ) (p : ℝ) (mq : ℝ) (beta : ℝ) (mu : ℝ) : ℝ :=
  let integral : Integral ℝ := zero_matsubara_default_method k
  polarization_quark_t_thermal_part_landau_w_method ig k p mq beta mu integral

/-- low_level/oneloop/thermal/gluon.rs l.810-819. -/
noncomputable def polarization_quark_l_thermal_part_zero_temp_landau (ig : Integrator) (k : Consts ℝ) (p : ℝ) (mq : ℝ) (mu : ℝ) : ℝ :=
  let integral : Integral ℝ := zero_matsubara_default_method k
  polarization_quark_l_thermal_part_zero_temp_landau_w_method ig k p mq mu integral

/-- low_level/oneloop/thermal/gluon.rs l.821-830. -/
noncomputable def polarization_quark_t_thermal_part_zero_temp_landau (ig : Integrator) (k : Consts ℝ) (p : ℝ) (mq : ℝ) (mu : ℝ) : ℝ :=
  let integral : Integral ℝ := zero_matsubara_default_method k
  polarization_quark_t_thermal_part_zero_temp_landau_w_method ig k p mq mu integral

end zero_matsubara

namespace zero_momentum

/-- low_level/oneloop/thermal/gluon.rs l.1077-1091. -/
noncomputable def polarization_glue_l_thermal_part_landau_w_method {T : Type} [Num T] (ig : Integrator) (om : T) (m : ℝ) (beta : ℝ) (integral : Integral ℝ) : ℂ :=
  ig.cplx (fun t => gluon.thermal.zero_momentum.polarization_glue_l_thermal_part_landau_i ((1 - t) / t) om m beta / (ofR (t * t) : ℂ)) (0, 1) integral

/-- low_level/oneloop/thermal/gluon.rs l.1093-1107. -/
noncomputable def polarization_glue_t_thermal_part_landau_w_method {T : Type} [Num T] (ig : Integrator) (om : T) (m : ℝ) (beta : ℝ) (integral : Integral ℝ) : ℂ :=
  ig.cplx (fun t => gluon.thermal.zero_momentum.polarization_glue_t_thermal_part_landau_i ((1 - t) / t) om m beta / (ofR (t * t) : ℂ)) (0, 1) integral

/-- low_level/oneloop/thermal/gluon.rs l.1109-1131. -/
noncomputable def polarization_quark_l_thermal_part_landau_w_method {T : Type} [Num T] (ig : Integrator) (k : Consts ℝ) (om : T) (mq : ℝ) (beta : ℝ) (mu : ℝ) (integral : Integral ℝ) : ℂ :=
  ig.cplx (fun t => toC (gluon.thermal.zero_momentum.polarization_quark_l_thermal_part_landau_i k ((1 - t) / t) om mq beta mu) / (ofR (t * t) : ℂ)) (0, 1) integral

/-- low_level/oneloop/thermal/gluon.rs l.1133-1155. -/
noncomputable def polarization_quark_t_thermal_part_landau_w_method {T : Type} [Num T] (ig : Integrator) (k : Consts ℝ) (om : T) (mq : ℝ) (beta : ℝ) (mu : ℝ) (integral : Integral ℝ) : ℂ :=
  ig.cplx (fun t => toC (gluon.thermal.zero_momentum.polarization_quark_t_thermal_part_landau_i k ((1 - t) / t) om mq beta mu) / (ofR (t * t) : ℂ)) (0, 1) integral

/-- low_level/oneloop/thermal/gluon.rs l.1157-1174. -/
noncomputable def polarization_quark_l_thermal_part_zero_temp_landau_w_method {T : Type} [Num T] (ig : Integrator) (k : Consts ℝ) (om : T) (mq : ℝ) (mu : ℝ) (integral : Integral ℝ) : ℂ :=
  open Classical in
  if |mu| < |mq| then (0 : ℂ) else
  ig.cplx (fun q => toC (gluon.thermal.zero_momentum.polarization_quark_l_thermal_part_zero_temp_landau_i k q om mq mu)) (0, fermi_momentum mq mu) integral

/-- low_level/oneloop/thermal/gluon.rs l.1176-1193. -/
noncomputable def polarization_quark_t_thermal_part_zero_temp_landau_w_method {T : Type} [Num T] (ig : Integrator) (k : Consts ℝ) (om : T) (mq : ℝ) (mu : ℝ) (integral : Integral ℝ) : ℂ :=
  open Classical in
  if |mu| < |mq| then (0 : ℂ) else
  ig.cplx (fun q => toC (gluon.thermal.zero_momentum.polarization_quark_t_thermal_part_zero_temp_landau_i k q om mq mu)) (0, fermi_momentum mq mu) integral

/-- low_level/oneloop/thermal/gluon.rs l.1195-1202. -/
noncomputable def polarization_glue_l_thermal_part_landau {T : Type} [Num T] (ig : Integrator) (k : Consts ℝ) (om : T) (m : ℝ) (beta : ℝ) : ℂ :=
  polarization_glue_l_thermal_part_landau_w_method ig om m beta (get_default_integration_method k)

/-- low_level/oneloop/thermal/gluon.rs l.1204-1211. -/
noncomputable def polarization_glue_t_thermal_part_landau {T : Type} [Num T] (ig : Integrator) (k : Consts ℝ) (om : T) (m : ℝ) (beta : ℝ) : ℂ :=
  polarization_glue_t_thermal_part_landau_w_method ig om m beta (get_default_integration_method k)

/-- low_level/oneloop/thermal/gluon.rs l.1213-1221. -/
noncomputable def polarization_quark_l_thermal_part_landau {T : Type} [Num T] (ig : Integrator) (k : Consts ℝ) (om : T) (mq : ℝ) (beta : ℝ) (mu : ℝ) : ℂ :=
  polarization_quark_l_thermal_part_landau_w_method ig k om mq beta mu (get_default_integration_method k)

/-- low_level/oneloop/thermal/gluon.rs l.1223-1231. -/
noncomputable def polarization_quark_t_thermal_part_landau {T : Type} [Num T] (ig : Integrator) (k : Consts ℝ) (om : T) (mq : ℝ) (beta : ℝ) (mu : ℝ) : ℂ :=
  polarization_quark_t_thermal_part_landau_w_method ig k om mq beta mu (get_default_integration_method k)

/-- low_level/oneloop/thermal/gluon.rs l.1233-1244. -/
noncomputable def polarization_quark_l_thermal_part_zero_temp_landau {T : Type} [Num T] (ig : Integrator) (k : Consts ℝ) (om : T) (mq : ℝ) (mu : ℝ) : ℂ :=
  polarization_quark_l_thermal_part_zero_temp_landau_w_method ig k om mq mu (get_default_integration_method k)

/-- low_level/oneloop/thermal/gluon.rs l.1246-1257. -/
noncomputable def polarization_quark_t_thermal_part_zero_temp_landau {T : Type} [Num T] (ig : Integrator) (k : Consts ℝ) (om : T) (mq : ℝ) (mu : ℝ) : ℂ :=
  polarization_quark_t_thermal_part_zero_temp_landau_w_method ig k om mq mu (get_default_integration_method k)

end zero_momentum

end gluon.thermal

end Qcd
