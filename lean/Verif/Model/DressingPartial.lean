import Verif.Model.ThermalDressing
import Verif.Model.ThermalPartial
import Verif.Model.PartialIntegrator

/-! # Second interpretation of the thermal integrals, dressing functions and propagators: definedness

The definitions of `Model/ThermalIntegrals.lean` and `Model/ThermalDressing.lean`, with results that may be undefined
(`Model/PartialNum.lean`) and an integrator of integrands that may be undefined (`Model/PartialIntegrator.lean`). The arguments are
numbers. Written by `tools/partial_dressing.py` from those files, which see. -/

namespace Qcd.P
open consts (Consts Integral get_default_integration_method)

namespace ghost.thermal

/-- low_level/oneloop/thermal/ghost.rs l.20-32. -/
noncomputable def self_energy_thermal_part_landau_w_method {T : Type} [Num T] [NumDom T] (pg : PIntegrator) (om : T) (p : ℝ) (m : ℝ) (beta : ℝ) (integral : Integral ℝ) : PV ℂ :=
  pg.cplx (fun t => Qcd.P.ghost.thermal.self_energy_thermal_part_landau_i ((1 - (PV.val t)) / (PV.val t)) (PV.val om) (PV.val p) (PV.val m) (PV.val beta) / (PV.ofR ((PV.val t) * (PV.val t)) : PV ℂ)) (0, 1) integral

/-- low_level/oneloop/thermal/ghost.rs l.34-36. -/
noncomputable def self_energy_thermal_part_landau {T : Type} [Num T] [NumDom T] (pg : PIntegrator) (k : Consts ℝ) (om : T) (p : ℝ) (m : ℝ) (beta : ℝ) : PV ℂ :=
  self_energy_thermal_part_landau_w_method pg om p m beta (get_default_integration_method k)

namespace zero_matsubara

/-- low_level/oneloop/thermal/ghost.rs l.105-119. -/
noncomputable def self_energy_thermal_part_landau_w_method (pg : PIntegrator) (p : ℝ) (m : ℝ) (beta : ℝ) (integral : Integral ℝ) : PV ℝ :=
  pg.real (fun t => PV.re (Qcd.P.ghost.thermal.zero_matsubara.self_energy_thermal_part_landau_i ((1 - (PV.val t)) / (PV.val t)) (PV.val p) (PV.val m) (PV.val beta)) / ((PV.val t) * (PV.val t))) (0, 1) integral

/-- low_level/oneloop/thermal/ghost.rs l.121-123. -/
noncomputable def self_energy_thermal_part_landau (pg : PIntegrator) (k : Consts ℝ) (p : ℝ) (m : ℝ) (beta : ℝ) : PV ℝ :=
  self_energy_thermal_part_landau_w_method pg p m beta (get_default_integration_method k)

end zero_matsubara

namespace zero_momentum

/-- low_level/oneloop/thermal/ghost.rs l.176-187. -/
noncomputable def self_energy_thermal_part_landau_w_method {T : Type} [Num T] [NumDom T] (pg : PIntegrator) (om : T) (m : ℝ) (beta : ℝ) (integral : Integral ℝ) : PV ℂ :=
  pg.cplx (fun t => Qcd.P.ghost.thermal.zero_momentum.self_energy_thermal_part_landau_i ((1 - (PV.val t)) / (PV.val t)) (PV.val om) (PV.val m) (PV.val beta) / (PV.ofR ((PV.val t) * (PV.val t)) : PV ℂ)) (0, 1) integral

/-- low_level/oneloop/thermal/ghost.rs l.189-191. -/
noncomputable def self_energy_thermal_part_landau {T : Type} [Num T] [NumDom T] (pg : PIntegrator) (k : Consts ℝ) (om : T) (m : ℝ) (beta : ℝ) : PV ℂ :=
  self_energy_thermal_part_landau_w_method pg om m beta (get_default_integration_method k)

end zero_momentum

end ghost.thermal

namespace gluon.thermal

/-- low_level/oneloop/thermal/gluon.rs l.79-94. -/
noncomputable def polarization_glue_l_thermal_part_landau_w_method {T1 T2 : Type} [Num T1] [NumDom T1] [Num T2] [NumDom T2] (pg : PIntegrator) (om : T1) (p : T2) (m : ℝ) (beta : ℝ) (integral : Integral ℝ) : PV ℂ :=
  pg.cplx (fun t => Qcd.P.gluon.thermal.polarization_glue_l_thermal_part_landau_i ((1 - (PV.val t)) / (PV.val t)) (PV.val om) (PV.val p) (PV.val m) (PV.val beta) / (PV.ofR ((PV.val t) * (PV.val t)) : PV ℂ)) (0, 1) integral

/-- low_level/oneloop/thermal/gluon.rs l.96-111. -/
noncomputable def polarization_glue_t_thermal_part_landau_w_method {T : Type} [Num T] [NumDom T] (pg : PIntegrator) (om : T) (p : ℝ) (m : ℝ) (beta : ℝ) (integral : Integral ℝ) : PV ℂ :=
  pg.cplx (fun t => Qcd.P.gluon.thermal.polarization_glue_t_thermal_part_landau_i ((1 - (PV.val t)) / (PV.val t)) (PV.val om) (PV.val p) (PV.val m) (PV.val beta) / (PV.ofR ((PV.val t) * (PV.val t)) : PV ℂ)) (0, 1) integral

/-- low_level/oneloop/thermal/gluon.rs l.113-135. -/
noncomputable def polarization_quark_l_thermal_part_landau_w_method {T1 T2 : Type} [Num T1] [NumDom T1] [Num T2] [NumDom T2] (pg : PIntegrator) (k : Consts ℝ) (om : T1) (p : T2) (mq : ℝ) (beta : ℝ) (mu : ℝ) (integral : Integral ℝ) : PV ℂ :=
  pg.cplx (fun t => Qcd.P.gluon.thermal.polarization_quark_l_thermal_part_landau_i k ((1 - (PV.val t)) / (PV.val t)) (PV.val om) (PV.val p) (PV.val mq) (PV.val beta) (PV.val mu) / (PV.ofR ((PV.val t) * (PV.val t)) : PV ℂ)) (0, 1) integral

/-- low_level/oneloop/thermal/gluon.rs l.137-159. -/
noncomputable def polarization_quark_t_thermal_part_landau_w_method {T : Type} [Num T] [NumDom T] (pg : PIntegrator) (k : Consts ℝ) (om : T) (p : ℝ) (mq : ℝ) (beta : ℝ) (mu : ℝ) (integral : Integral ℝ) : PV ℂ :=
  pg.cplx (fun t => Qcd.P.gluon.thermal.polarization_quark_t_thermal_part_landau_i k ((1 - (PV.val t)) / (PV.val t)) (PV.val om) (PV.val p) (PV.val mq) (PV.val beta) (PV.val mu) / (PV.ofR ((PV.val t) * (PV.val t)) : PV ℂ)) (0, 1) integral

/-- low_level/oneloop/thermal/gluon.rs l.161-176. -/
noncomputable def polarization_quark_l_thermal_part_zero_temp_landau_w_method {T1 T2 : Type} [Num T1] [NumDom T1] [Num T2] [NumDom T2] (pg : PIntegrator) (k : Consts ℝ) (om : T1) (p : T2) (mq : ℝ) (mu : ℝ) (integral : Integral ℝ) : PV ℂ :=
  open Classical in
  if |mu| < |mq| then .val 0 else
  PV.bind (Qcd.P.fermi_momentum (PV.val mq) (PV.val mu)) fun pf => pg.cplx (fun q => Qcd.P.gluon.thermal.polarization_quark_l_thermal_part_zero_temp_landau_i k (PV.val q) (PV.val om) (PV.val p) (PV.val mq) (PV.val mu)) (0, pf) integral

/-- low_level/oneloop/thermal/gluon.rs l.178-193. -/
noncomputable def polarization_quark_t_thermal_part_zero_temp_landau_w_method {T : Type} [Num T] [NumDom T] (pg : PIntegrator) (k : Consts ℝ) (om : T) (p : ℝ) (mq : ℝ) (mu : ℝ) (integral : Integral ℝ) : PV ℂ :=
  open Classical in
  if |mu| < |mq| then .val 0 else
  PV.bind (Qcd.P.fermi_momentum (PV.val mq) (PV.val mu)) fun pf => pg.cplx (fun q => Qcd.P.gluon.thermal.polarization_quark_t_thermal_part_zero_temp_landau_i k (PV.val q) (PV.val om) (PV.val p) (PV.val mq) (PV.val mu)) (0, pf) integral

/-- low_level/oneloop/thermal/gluon.rs l.195-208. -/
noncomputable def polarization_glue_l_thermal_part_landau {T1 T2 : Type} [Num T1] [NumDom T1] [Num T2] [NumDom T2] (pg : PIntegrator) (k : Consts ℝ) (om : T1) (p : T2) (m : ℝ) (beta : ℝ) : PV ℂ :=
  polarization_glue_l_thermal_part_landau_w_method pg om p m beta (get_default_integration_method k)

/-- low_level/oneloop/thermal/gluon.rs l.210-218. -/
noncomputable def polarization_glue_t_thermal_part_landau {T : Type} [Num T] [NumDom T] (pg : PIntegrator) (k : Consts ℝ) (om : T) (p : ℝ) (m : ℝ) (beta : ℝ) : PV ℂ :=
  polarization_glue_t_thermal_part_landau_w_method pg om p m beta (get_default_integration_method k)

/-- low_level/oneloop/thermal/gluon.rs l.220-235. -/
noncomputable def polarization_quark_l_thermal_part_landau {T1 T2 : Type} [Num T1] [NumDom T1] [Num T2] [NumDom T2] (pg : PIntegrator) (k : Consts ℝ) (om : T1) (p : T2) (mq : ℝ) (beta : ℝ) (mu : ℝ) : PV ℂ :=
  polarization_quark_l_thermal_part_landau_w_method pg k om p mq beta mu (get_default_integration_method k)

/-- low_level/oneloop/thermal/gluon.rs l.237-252. -/
noncomputable def polarization_quark_t_thermal_part_landau {T : Type} [Num T] [NumDom T] (pg : PIntegrator) (k : Consts ℝ) (om : T) (p : ℝ) (mq : ℝ) (beta : ℝ) (mu : ℝ) : PV ℂ :=
  polarization_quark_t_thermal_part_landau_w_method pg k om p mq beta mu (get_default_integration_method k)

/-- low_level/oneloop/thermal/gluon.rs l.254-267. -/
noncomputable def polarization_quark_l_thermal_part_zero_temp_landau {T1 T2 : Type} [Num T1] [NumDom T1] [Num T2] [NumDom T2] (pg : PIntegrator) (k : Consts ℝ) (om : T1) (p : T2) (mq : ℝ) (mu : ℝ) : PV ℂ :=
  polarization_quark_l_thermal_part_zero_temp_landau_w_method pg k om p mq mu (get_default_integration_method k)

/-- low_level/oneloop/thermal/gluon.rs l.269-282. -/
noncomputable def polarization_quark_t_thermal_part_zero_temp_landau {T : Type} [Num T] [NumDom T] (pg : PIntegrator) (k : Consts ℝ) (om : T) (p : ℝ) (mq : ℝ) (mu : ℝ) : PV ℂ :=
  polarization_quark_t_thermal_part_zero_temp_landau_w_method pg k om p mq mu (get_default_integration_method k)

namespace zero_matsubara

/-- low_level/oneloop/thermal/gluon.rs l.610-638. -/
noncomputable def polarization_glue_l_thermal_part_landau_w_method (pg : PIntegrator) (k : Consts ℝ) (p : ℝ) (m : ℝ) (beta : ℝ) (integral : Integral ℝ) : PV ℝ :=
  pg.real (fun t => PV.re (Qcd.P.gluon.thermal.polarization_glue_l_thermal_part_landau_i ((1 - (PV.val t)) / (PV.val t)) (PV.val k.matsubara_reg) (PV.val p) (PV.val m) (PV.val beta)) / ((PV.val t) * (PV.val t))) (0, 1) integral

/-- low_level/oneloop/thermal/gluon.rs l.640-660. -/
noncomputable def polarization_glue_t_thermal_part_landau_w_method (pg : PIntegrator) (k : Consts ℝ) (p : ℝ) (m : ℝ) (beta : ℝ) (integral : Integral ℝ) : PV ℝ :=
  pg.real (fun t => PV.re (Qcd.P.gluon.thermal.polarization_glue_t_thermal_part_landau_i ((1 - (PV.val t)) / (PV.val t)) (PV.val k.matsubara_reg) (PV.val p) (PV.val m) (PV.val beta)) / ((PV.val t) * (PV.val t))) (0, 1) integral

/-- low_level/oneloop/thermal/gluon.rs l.662-684. -/
noncomputable def polarization_quark_l_thermal_part_landau_w_method (pg : PIntegrator) (k : Consts ℝ) (p : ℝ) (mq : ℝ) (beta : ℝ) (mu : ℝ) (integral : Integral ℝ) : PV ℝ :=
  pg.real (fun t => PV.re (Qcd.P.gluon.thermal.polarization_quark_l_thermal_part_landau_i k ((1 - (PV.val t)) / (PV.val t)) (PV.val k.matsubara_reg) (PV.val p) (PV.val mq) (PV.val beta) (PV.val mu)) / ((PV.val t) * (PV.val t))) (0, 1) integral

/-- low_level/oneloop/thermal/gluon.rs l.686-708. -/
noncomputable def polarization_quark_t_thermal_part_landau_w_method (pg : PIntegrator) (k : Consts ℝ) (p : ℝ) (mq : ℝ) (beta : ℝ) (mu : ℝ) (integral : Integral ℝ) : PV ℝ :=
  pg.real (fun t => PV.re (Qcd.P.gluon.thermal.polarization_quark_t_thermal_part_landau_i k ((1 - (PV.val t)) / (PV.val t)) (PV.val k.matsubara_reg) (PV.val p) (PV.val mq) (PV.val beta) (PV.val mu)) / ((PV.val t) * (PV.val t))) (0, 1) integral

/-- low_level/oneloop/thermal/gluon.rs l.710-733. -/
noncomputable def polarization_quark_l_thermal_part_zero_temp_landau_w_method (pg : PIntegrator) (k : Consts ℝ) (p : ℝ) (mq : ℝ) (mu : ℝ) (integral : Integral ℝ) : PV ℝ :=
  open Classical in
  if |mu| < |mq| then .val 0 else
  PV.bind (Qcd.P.fermi_momentum (PV.val mq) (PV.val mu)) fun pf => pg.real (fun q => PV.re (Qcd.P.gluon.thermal.polarization_quark_l_thermal_part_zero_temp_landau_i k (PV.val q) (PV.val k.matsubara_reg) (PV.val p) (PV.val mq) (PV.val mu))) (0, pf) integral

/-- low_level/oneloop/thermal/gluon.rs l.735-758. -/
noncomputable def polarization_quark_t_thermal_part_zero_temp_landau_w_method (pg : PIntegrator) (k : Consts ℝ) (p : ℝ) (mq : ℝ) (mu : ℝ) (integral : Integral ℝ) : PV ℝ :=
  open Classical in
  if |mu| < |mq| then .val 0 else
  PV.bind (Qcd.P.fermi_momentum (PV.val mq) (PV.val mu)) fun pf => pg.real (fun q => PV.re (Qcd.P.gluon.thermal.polarization_quark_t_thermal_part_zero_temp_landau_i k (PV.val q) (PV.val k.matsubara_reg) (PV.val p) (PV.val mq) (PV.val mu))) (0, pf) integral

/-- low_level/oneloop/thermal/gluon.rs l.766-775. -/
noncomputable def polarization_glue_l_thermal_part_landau (pg : PIntegrator) (k : Consts ℝ) (p : ℝ) (m : ℝ) (beta : ℝ) : PV ℝ :=
  let integral : Integral ℝ := zero_matsubara_default_method k
  polarization_glue_l_thermal_part_landau_w_method pg k p m beta integral

/-- low_level/oneloop/thermal/gluon.rs l.777-786. -/
noncomputable def polarization_glue_t_thermal_part_landau (pg : PIntegrator) (k : Consts ℝ) (p : ℝ) (m : ℝ) (beta : ℝ) : PV ℝ :=
  let integral : Integral ℝ := zero_matsubara_default_method k
  polarization_glue_t_thermal_part_landau_w_method pg k p m beta integral

/-- low_level/oneloop/thermal/gluon.rs l.788-797. -/
noncomputable def polarization_quark_l_thermal_part_landau (pg : PIntegrator) (k : Consts ℝ) (p : ℝ) (mq : ℝ) (beta : ℝ) (mu : ℝ) : PV ℝ :=
  let integral : Integral ℝ := zero_matsubara_default_method k
  polarization_quark_l_thermal_part_landau_w_method pg k p mq beta mu integral

/-- low_level/oneloop/thermal/gluon.rs l.799-808. -/
noncomputable def polarization_quark_t_thermal_part_landau (pg : PIntegrator) (k : Consts ℝ) (p : ℝ) (mq : ℝ) (beta : ℝ) (mu : ℝ) : PV ℝ :=
  let integral : Integral ℝ := zero_matsubara_default_method k
  polarization_quark_t_thermal_part_landau_w_method pg k p mq beta mu integral

/-- low_level/oneloop/thermal/gluon.rs l.810-819. -/
noncomputable def polarization_quark_l_thermal_part_zero_temp_landau (pg : PIntegrator) (k : Consts ℝ) (p : ℝ) (mq : ℝ) (mu : ℝ) : PV ℝ :=
  let integral : Integral ℝ := zero_matsubara_default_method k
  polarization_quark_l_thermal_part_zero_temp_landau_w_method pg k p mq mu integral

/-- low_level/oneloop/thermal/gluon.rs l.821-830. -/
noncomputable def polarization_quark_t_thermal_part_zero_temp_landau (pg : PIntegrator) (k : Consts ℝ) (p : ℝ) (mq : ℝ) (mu : ℝ) : PV ℝ :=
  let integral : Integral ℝ := zero_matsubara_default_method k
  polarization_quark_t_thermal_part_zero_temp_landau_w_method pg k p mq mu integral

end zero_matsubara

namespace zero_momentum

/-- low_level/oneloop/thermal/gluon.rs l.1077-1091. -/
noncomputable def polarization_glue_l_thermal_part_landau_w_method {T : Type} [Num T] [NumDom T] (pg : PIntegrator) (om : T) (m : ℝ) (beta : ℝ) (integral : Integral ℝ) : PV ℂ :=
  pg.cplx (fun t => Qcd.P.gluon.thermal.zero_momentum.polarization_glue_l_thermal_part_landau_i ((1 - (PV.val t)) / (PV.val t)) (PV.val om) (PV.val m) (PV.val beta) / (PV.ofR ((PV.val t) * (PV.val t)) : PV ℂ)) (0, 1) integral

/-- low_level/oneloop/thermal/gluon.rs l.1093-1107. -/
noncomputable def polarization_glue_t_thermal_part_landau_w_method {T : Type} [Num T] [NumDom T] (pg : PIntegrator) (om : T) (m : ℝ) (beta : ℝ) (integral : Integral ℝ) : PV ℂ :=
  pg.cplx (fun t => Qcd.P.gluon.thermal.zero_momentum.polarization_glue_t_thermal_part_landau_i ((1 - (PV.val t)) / (PV.val t)) (PV.val om) (PV.val m) (PV.val beta) / (PV.ofR ((PV.val t) * (PV.val t)) : PV ℂ)) (0, 1) integral

/-- low_level/oneloop/thermal/gluon.rs l.1109-1131. -/
noncomputable def polarization_quark_l_thermal_part_landau_w_method {T : Type} [Num T] [NumDom T] (pg : PIntegrator) (k : Consts ℝ) (om : T) (mq : ℝ) (beta : ℝ) (mu : ℝ) (integral : Integral ℝ) : PV ℂ :=
  pg.cplx (fun t => PV.toC (Qcd.P.gluon.thermal.zero_momentum.polarization_quark_l_thermal_part_landau_i k ((1 - (PV.val t)) / (PV.val t)) (PV.val om) (PV.val mq) (PV.val beta) (PV.val mu)) / (PV.ofR ((PV.val t) * (PV.val t)) : PV ℂ)) (0, 1) integral

/-- low_level/oneloop/thermal/gluon.rs l.1133-1155. -/
noncomputable def polarization_quark_t_thermal_part_landau_w_method {T : Type} [Num T] [NumDom T] (pg : PIntegrator) (k : Consts ℝ) (om : T) (mq : ℝ) (beta : ℝ) (mu : ℝ) (integral : Integral ℝ) : PV ℂ :=
  pg.cplx (fun t => PV.toC (Qcd.P.gluon.thermal.zero_momentum.polarization_quark_t_thermal_part_landau_i k ((1 - (PV.val t)) / (PV.val t)) (PV.val om) (PV.val mq) (PV.val beta) (PV.val mu)) / (PV.ofR ((PV.val t) * (PV.val t)) : PV ℂ)) (0, 1) integral

/-- low_level/oneloop/thermal/gluon.rs l.1157-1174. -/
noncomputable def polarization_quark_l_thermal_part_zero_temp_landau_w_method {T : Type} [Num T] [NumDom T] (pg : PIntegrator) (k : Consts ℝ) (om : T) (mq : ℝ) (mu : ℝ) (integral : Integral ℝ) : PV ℂ :=
  open Classical in
  if |mu| < |mq| then .val 0 else
  PV.bind (Qcd.P.fermi_momentum (PV.val mq) (PV.val mu)) fun pf => pg.cplx (fun q => PV.toC (Qcd.P.gluon.thermal.zero_momentum.polarization_quark_l_thermal_part_zero_temp_landau_i k (PV.val q) (PV.val om) (PV.val mq) (PV.val mu))) (0, pf) integral

/-- low_level/oneloop/thermal/gluon.rs l.1176-1193. -/
noncomputable def polarization_quark_t_thermal_part_zero_temp_landau_w_method {T : Type} [Num T] [NumDom T] (pg : PIntegrator) (k : Consts ℝ) (om : T) (mq : ℝ) (mu : ℝ) (integral : Integral ℝ) : PV ℂ :=
  open Classical in
  if |mu| < |mq| then .val 0 else
  PV.bind (Qcd.P.fermi_momentum (PV.val mq) (PV.val mu)) fun pf => pg.cplx (fun q => PV.toC (Qcd.P.gluon.thermal.zero_momentum.polarization_quark_t_thermal_part_zero_temp_landau_i k (PV.val q) (PV.val om) (PV.val mq) (PV.val mu))) (0, pf) integral

/-- low_level/oneloop/thermal/gluon.rs l.1195-1202. -/
noncomputable def polarization_glue_l_thermal_part_landau {T : Type} [Num T] [NumDom T] (pg : PIntegrator) (k : Consts ℝ) (om : T) (m : ℝ) (beta : ℝ) : PV ℂ :=
  polarization_glue_l_thermal_part_landau_w_method pg om m beta (get_default_integration_method k)

/-- low_level/oneloop/thermal/gluon.rs l.1204-1211. -/
noncomputable def polarization_glue_t_thermal_part_landau {T : Type} [Num T] [NumDom T] (pg : PIntegrator) (k : Consts ℝ) (om : T) (m : ℝ) (beta : ℝ) : PV ℂ :=
  polarization_glue_t_thermal_part_landau_w_method pg om m beta (get_default_integration_method k)

/-- low_level/oneloop/thermal/gluon.rs l.1213-1221. -/
noncomputable def polarization_quark_l_thermal_part_landau {T : Type} [Num T] [NumDom T] (pg : PIntegrator) (k : Consts ℝ) (om : T) (mq : ℝ) (beta : ℝ) (mu : ℝ) : PV ℂ :=
  polarization_quark_l_thermal_part_landau_w_method pg k om mq beta mu (get_default_integration_method k)

/-- low_level/oneloop/thermal/gluon.rs l.1223-1231. -/
noncomputable def polarization_quark_t_thermal_part_landau {T : Type} [Num T] [NumDom T] (pg : PIntegrator) (k : Consts ℝ) (om : T) (mq : ℝ) (beta : ℝ) (mu : ℝ) : PV ℂ :=
  polarization_quark_t_thermal_part_landau_w_method pg k om mq beta mu (get_default_integration_method k)

/-- low_level/oneloop/thermal/gluon.rs l.1233-1244. -/
noncomputable def polarization_quark_l_thermal_part_zero_temp_landau {T : Type} [Num T] [NumDom T] (pg : PIntegrator) (k : Consts ℝ) (om : T) (mq : ℝ) (mu : ℝ) : PV ℂ :=
  polarization_quark_l_thermal_part_zero_temp_landau_w_method pg k om mq mu (get_default_integration_method k)

/-- low_level/oneloop/thermal/gluon.rs l.1246-1257. -/
noncomputable def polarization_quark_t_thermal_part_zero_temp_landau {T : Type} [Num T] [NumDom T] (pg : PIntegrator) (k : Consts ℝ) (om : T) (mq : ℝ) (mu : ℝ) : PV ℂ :=
  polarization_quark_t_thermal_part_zero_temp_landau_w_method pg k om mq mu (get_default_integration_method k)

end zero_momentum

end gluon.thermal

namespace ym.thermal.ghost

/-- ym/thermal.rs l.9-14. -/
noncomputable def dressing_inv_landau {T : Type} [Num T] [NumDom T] (pg : PIntegrator) (k : Consts ℝ) (om : T) (p : ℝ) (m : ℝ) (beta : ℝ) (g0 : ℝ) : PV ℂ :=
  let sdim : PV T := (PV.val om) * (PV.val om) + (PV.ofR ((PV.val p) * (PV.val p)) : PV T)
  let s : PV T := sdim / (PV.ofR ((PV.val m) * (PV.val m)) : PV T)
  PV.toC (Qcd.ghost.dressing_inv_landau s g0) + PV.toC (sdim⁻¹ * (PV.ofR (PV.val PREFACTOR) : PV T)) * Qcd.P.ghost.thermal.self_energy_thermal_part_landau pg k om p m beta

/-- ym/thermal.rs l.16-18. -/
noncomputable def dressing_landau (pg : PIntegrator) (k : Consts ℝ) (om : ℝ) (p : ℝ) (m : ℝ) (beta : ℝ) (g0 : ℝ) : PV ℂ :=
  (dressing_inv_landau pg k om p m beta g0)⁻¹

/-- ym/thermal.rs l.20-22. -/
noncomputable def propagator_landau (pg : PIntegrator) (k : Consts ℝ) (om : ℝ) (p : ℝ) (m : ℝ) (beta : ℝ) (g0 : ℝ) : PV ℂ :=
  (PV.ofR ((PV.val om) * (PV.val om) + (PV.val p) * (PV.val p))⁻¹ : PV ℂ) * dressing_landau pg k om p m beta g0

end ym.thermal.ghost

namespace ym.thermal.gluon

/-- ym/thermal.rs l.37-42. -/
noncomputable def dressing_l_inv_landau {T : Type} [Num T] [NumDom T] (pg : PIntegrator) (k : Consts ℝ) (om : T) (p : ℝ) (m : ℝ) (beta : ℝ) (f0 : ℝ) : PV ℂ :=
  let sdim : PV T := (PV.val om) * (PV.val om) + (PV.ofR ((PV.val p) * (PV.val p)) : PV T)
  let s : PV T := sdim / (PV.ofR ((PV.val m) * (PV.val m)) : PV T)
  PV.toC (Qcd.ym.gluon.dressing_inv_landau s f0) - PV.toC (sdim⁻¹ * (PV.ofR (PV.val PREFACTOR) : PV T)) * Qcd.P.gluon.thermal.polarization_glue_l_thermal_part_landau pg k om p m beta

/-- ym/thermal.rs l.44-49. -/
noncomputable def dressing_t_inv_landau {T : Type} [Num T] [NumDom T] (pg : PIntegrator) (k : Consts ℝ) (om : T) (p : ℝ) (m : ℝ) (beta : ℝ) (f0 : ℝ) : PV ℂ :=
  let sdim : PV T := (PV.val om) * (PV.val om) + (PV.ofR ((PV.val p) * (PV.val p)) : PV T)
  let s : PV T := sdim / (PV.ofR ((PV.val m) * (PV.val m)) : PV T)
  PV.toC (Qcd.ym.gluon.dressing_inv_landau s f0) - PV.toC (sdim⁻¹ * (PV.ofR (PV.val PREFACTOR) : PV T)) * Qcd.P.gluon.thermal.polarization_glue_t_thermal_part_landau pg k om p m beta

/-- ym/thermal.rs l.51-53. -/
noncomputable def dressing_l_landau {T : Type} [Num T] [NumDom T] (pg : PIntegrator) (k : Consts ℝ) (om : T) (p : ℝ) (m : ℝ) (beta : ℝ) (f0 : ℝ) : PV ℂ :=
  (dressing_l_inv_landau pg k om p m beta f0)⁻¹

/-- ym/thermal.rs l.55-57. -/
noncomputable def dressing_t_landau {T : Type} [Num T] [NumDom T] (pg : PIntegrator) (k : Consts ℝ) (om : T) (p : ℝ) (m : ℝ) (beta : ℝ) (f0 : ℝ) : PV ℂ :=
  (dressing_t_inv_landau pg k om p m beta f0)⁻¹

/-- ym/thermal.rs l.59-61. -/
noncomputable def propagator_l_landau {T : Type} [Num T] [NumDom T] (pg : PIntegrator) (k : Consts ℝ) (om : T) (p : ℝ) (m : ℝ) (beta : ℝ) (f0 : ℝ) : PV ℂ :=
  PV.toC ((PV.val om) * (PV.val om) + (PV.ofR ((PV.val p) * (PV.val p)) : PV T))⁻¹ * dressing_l_landau pg k om p m beta f0

/-- ym/thermal.rs l.63-65. -/
noncomputable def propagator_t_landau {T : Type} [Num T] [NumDom T] (pg : PIntegrator) (k : Consts ℝ) (om : T) (p : ℝ) (m : ℝ) (beta : ℝ) (f0 : ℝ) : PV ℂ :=
  PV.toC ((PV.val om) * (PV.val om) + (PV.ofR ((PV.val p) * (PV.val p)) : PV T))⁻¹ * dressing_t_landau pg k om p m beta f0

end ym.thermal.gluon

namespace ym.thermal.zero_matsubara.ghost

/-- ym/thermal.rs l.79-84. -/
noncomputable def dressing_inv_landau (pg : PIntegrator) (k : Consts ℝ) (p : ℝ) (m : ℝ) (beta : ℝ) (g0 : ℝ) : PV ℝ :=
  let sdim : PV ℝ := (PV.val p) * (PV.val p)
  let s : PV ℝ := sdim / ((PV.val m) * (PV.val m))
  Qcd.ghost.dressing_inv_landau s g0 + (PV.val PREFACTOR) * Qcd.P.ghost.thermal.zero_matsubara.self_energy_thermal_part_landau pg k p m beta / sdim

/-- ym/thermal.rs l.86-88. -/
noncomputable def dressing_landau (pg : PIntegrator) (k : Consts ℝ) (p : ℝ) (m : ℝ) (beta : ℝ) (g0 : ℝ) : PV ℝ :=
  1 / dressing_inv_landau pg k p m beta g0

/-- ym/thermal.rs l.90-92. -/
noncomputable def propagator_landau (pg : PIntegrator) (k : Consts ℝ) (p : ℝ) (m : ℝ) (beta : ℝ) (g0 : ℝ) : PV ℝ :=
  dressing_landau pg k p m beta g0 / ((PV.val p) * (PV.val p))

end ym.thermal.zero_matsubara.ghost

namespace ym.thermal.zero_matsubara.gluon

/-- ym/thermal.rs l.107-112. -/
noncomputable def dressing_l_inv_landau (pg : PIntegrator) (k : Consts ℝ) (p : ℝ) (m : ℝ) (beta : ℝ) (f0 : ℝ) : PV ℝ :=
  let sdim : PV ℝ := (PV.val p) * (PV.val p)
  let s : PV ℝ := sdim / ((PV.val m) * (PV.val m))
  Qcd.ym.gluon.dressing_inv_landau s f0 - (PV.val PREFACTOR) * Qcd.P.gluon.thermal.zero_matsubara.polarization_glue_l_thermal_part_landau pg k p m beta / sdim

/-- ym/thermal.rs l.114-119. -/
noncomputable def dressing_t_inv_landau (pg : PIntegrator) (k : Consts ℝ) (p : ℝ) (m : ℝ) (beta : ℝ) (f0 : ℝ) : PV ℝ :=
  let sdim : PV ℝ := (PV.val p) * (PV.val p)
  let s : PV ℝ := sdim / ((PV.val m) * (PV.val m))
  Qcd.ym.gluon.dressing_inv_landau s f0 - (PV.val PREFACTOR) * Qcd.P.gluon.thermal.zero_matsubara.polarization_glue_t_thermal_part_landau pg k p m beta / sdim

/-- ym/thermal.rs l.121-123. -/
noncomputable def dressing_l_landau (pg : PIntegrator) (k : Consts ℝ) (p : ℝ) (m : ℝ) (beta : ℝ) (f0 : ℝ) : PV ℝ :=
  1 / dressing_l_inv_landau pg k p m beta f0

/-- ym/thermal.rs l.125-127. -/
noncomputable def dressing_t_landau (pg : PIntegrator) (k : Consts ℝ) (p : ℝ) (m : ℝ) (beta : ℝ) (f0 : ℝ) : PV ℝ :=
  1 / dressing_t_inv_landau pg k p m beta f0

/-- ym/thermal.rs l.129-131. -/
noncomputable def propagator_l_landau (pg : PIntegrator) (k : Consts ℝ) (p : ℝ) (m : ℝ) (beta : ℝ) (f0 : ℝ) : PV ℝ :=
  dressing_l_landau pg k p m beta f0 / ((PV.val p) * (PV.val p))

/-- ym/thermal.rs l.133-135. -/
noncomputable def propagator_t_landau (pg : PIntegrator) (k : Consts ℝ) (p : ℝ) (m : ℝ) (beta : ℝ) (f0 : ℝ) : PV ℝ :=
  dressing_t_landau pg k p m beta f0 / ((PV.val p) * (PV.val p))

end ym.thermal.zero_matsubara.gluon

namespace ym.thermal.zero_momentum.ghost

/-- ym/thermal.rs l.150-155. -/
noncomputable def dressing_inv_landau {T : Type} [Num T] [NumDom T] (pg : PIntegrator) (k : Consts ℝ) (om : T) (m : ℝ) (beta : ℝ) (g0 : ℝ) : PV ℂ :=
  let sdim : PV T := (PV.val om) * (PV.val om)
  let s : PV T := sdim / (PV.ofR ((PV.val m) * (PV.val m)) : PV T)
  PV.toC (Qcd.ghost.dressing_inv_landau s g0) + PV.toC (sdim⁻¹ * (PV.ofR (PV.val PREFACTOR) : PV T)) * Qcd.P.ghost.thermal.zero_momentum.self_energy_thermal_part_landau pg k om m beta

/-- ym/thermal.rs l.157-159. -/
noncomputable def dressing_landau {T : Type} [Num T] [NumDom T] (pg : PIntegrator) (k : Consts ℝ) (om : T) (m : ℝ) (beta : ℝ) (g0 : ℝ) : PV ℂ :=
  (PV.ofR 1 : PV ℂ) / dressing_inv_landau pg k om m beta g0

/-- ym/thermal.rs l.161-163. -/
noncomputable def propagator_landau {T : Type} [Num T] [NumDom T] (pg : PIntegrator) (k : Consts ℝ) (om : T) (m : ℝ) (beta : ℝ) (g0 : ℝ) : PV ℂ :=
  PV.toC ((PV.val om) * (PV.val om))⁻¹ * dressing_landau pg k om m beta g0

end ym.thermal.zero_momentum.ghost

namespace ym.thermal.zero_momentum.gluon

/-- ym/thermal.rs l.176-181. -/
noncomputable def dressing_l_inv_landau {T : Type} [Num T] [NumDom T] (pg : PIntegrator) (k : Consts ℝ) (om : T) (m : ℝ) (beta : ℝ) (f0 : ℝ) : PV ℂ :=
  let sdim : PV T := (PV.val om) * (PV.val om)
  let s : PV T := sdim / (PV.ofR ((PV.val m) * (PV.val m)) : PV T)
  PV.toC (Qcd.ym.gluon.dressing_inv_landau s f0) - PV.toC (sdim⁻¹ * (PV.ofR (PV.val PREFACTOR) : PV T)) * Qcd.P.gluon.thermal.zero_momentum.polarization_glue_l_thermal_part_landau pg k om m beta

/-- ym/thermal.rs l.183-185. -/
noncomputable def dressing_t_inv_landau {T : Type} [Num T] [NumDom T] (pg : PIntegrator) (k : Consts ℝ) (om : T) (m : ℝ) (beta : ℝ) (f0 : ℝ) : PV ℂ :=
  dressing_l_inv_landau pg k om m beta f0

/-- ym/thermal.rs l.187-189. -/
noncomputable def dressing_l_landau {T : Type} [Num T] [NumDom T] (pg : PIntegrator) (k : Consts ℝ) (om : T) (m : ℝ) (beta : ℝ) (f0 : ℝ) : PV ℂ :=
  (PV.ofR 1 : PV ℂ) / dressing_l_inv_landau pg k om m beta f0

/-- ym/thermal.rs l.191-193. -/
noncomputable def dressing_t_landau {T : Type} [Num T] [NumDom T] (pg : PIntegrator) (k : Consts ℝ) (om : T) (m : ℝ) (beta : ℝ) (f0 : ℝ) : PV ℂ :=
  (PV.ofR 1 : PV ℂ) / dressing_t_inv_landau pg k om m beta f0

/-- ym/thermal.rs l.195-197. -/
noncomputable def propagator_l_landau {T : Type} [Num T] [NumDom T] (pg : PIntegrator) (k : Consts ℝ) (om : T) (m : ℝ) (beta : ℝ) (f0 : ℝ) : PV ℂ :=
  PV.toC ((PV.val om) * (PV.val om))⁻¹ * dressing_l_landau pg k om m beta f0

/-- ym/thermal.rs l.199-201. -/
noncomputable def propagator_t_landau {T : Type} [Num T] [NumDom T] (pg : PIntegrator) (k : Consts ℝ) (om : T) (m : ℝ) (beta : ℝ) (f0 : ℝ) : PV ℂ :=
  PV.toC ((PV.val om) * (PV.val om))⁻¹ * dressing_t_landau pg k om m beta f0

end ym.thermal.zero_momentum.gluon

namespace qcd.thermal.gluon

/-- qcd/thermal.rs l.17-28. -/
noncomputable def dressing_l_inv_landau {T : Type} [Num T] [NumDom T] (pg : PIntegrator) (k : Consts ℝ) (om : T) (p : ℝ) (m : ℝ) (mq : ℝ) (beta : ℝ) (mu : ℝ) (f0 : ℝ) : PV ℂ :=
  let sdim : PV T := (PV.val om) * (PV.val om) + (PV.ofR ((PV.val p) * (PV.val p)) : PV T)
  let s : PV T := sdim / (PV.ofR ((PV.val m) * (PV.val m)) : PV T)
  PV.toC ((PV.bind (PV.val mq / PV.val m) fun r => Qcd.qcd.gluon.dressing_inv_landau k s r f0)) - PV.toC (sdim⁻¹ * (PV.ofR (PV.val PREFACTOR) : PV T)) * (Qcd.P.gluon.thermal.polarization_glue_l_thermal_part_landau pg k om p m beta + (PV.ofR (PV.val (k.nf : ℝ)) : PV ℂ) * Qcd.P.gluon.thermal.polarization_quark_l_thermal_part_landau pg k om p mq beta mu)

/-- qcd/thermal.rs l.30-41. -/
noncomputable def dressing_t_inv_landau {T : Type} [Num T] [NumDom T] (pg : PIntegrator) (k : Consts ℝ) (om : T) (p : ℝ) (m : ℝ) (mq : ℝ) (beta : ℝ) (mu : ℝ) (f0 : ℝ) : PV ℂ :=
  let sdim : PV T := (PV.val om) * (PV.val om) + (PV.ofR ((PV.val p) * (PV.val p)) : PV T)
  let s : PV T := sdim / (PV.ofR ((PV.val m) * (PV.val m)) : PV T)
  PV.toC ((PV.bind (PV.val mq / PV.val m) fun r => Qcd.qcd.gluon.dressing_inv_landau k s r f0)) - PV.toC (sdim⁻¹ * (PV.ofR (PV.val PREFACTOR) : PV T)) * (Qcd.P.gluon.thermal.polarization_glue_t_thermal_part_landau pg k om p m beta + (PV.ofR (PV.val (k.nf : ℝ)) : PV ℂ) * Qcd.P.gluon.thermal.polarization_quark_t_thermal_part_landau pg k om p mq beta mu)

/-- qcd/thermal.rs l.43-45. -/
noncomputable def dressing_l_landau {T : Type} [Num T] [NumDom T] (pg : PIntegrator) (k : Consts ℝ) (om : T) (p : ℝ) (m : ℝ) (mq : ℝ) (beta : ℝ) (mu : ℝ) (f0 : ℝ) : PV ℂ :=
  (dressing_l_inv_landau pg k om p m mq beta mu f0)⁻¹

/-- qcd/thermal.rs l.47-49. -/
noncomputable def dressing_t_landau {T : Type} [Num T] [NumDom T] (pg : PIntegrator) (k : Consts ℝ) (om : T) (p : ℝ) (m : ℝ) (mq : ℝ) (beta : ℝ) (mu : ℝ) (f0 : ℝ) : PV ℂ :=
  (dressing_t_inv_landau pg k om p m mq beta mu f0)⁻¹

/-- qcd/thermal.rs l.51-53. -/
noncomputable def propagator_l_landau {T : Type} [Num T] [NumDom T] (pg : PIntegrator) (k : Consts ℝ) (om : T) (p : ℝ) (m : ℝ) (mq : ℝ) (beta : ℝ) (mu : ℝ) (f0 : ℝ) : PV ℂ :=
  PV.toC ((PV.val om) * (PV.val om) + (PV.ofR ((PV.val p) * (PV.val p)) : PV T))⁻¹ * dressing_l_landau pg k om p m mq beta mu f0

/-- qcd/thermal.rs l.55-57. -/
noncomputable def propagator_t_landau {T : Type} [Num T] [NumDom T] (pg : PIntegrator) (k : Consts ℝ) (om : T) (p : ℝ) (m : ℝ) (mq : ℝ) (beta : ℝ) (mu : ℝ) (f0 : ℝ) : PV ℂ :=
  PV.toC ((PV.val om) * (PV.val om) + (PV.ofR ((PV.val p) * (PV.val p)) : PV T))⁻¹ * dressing_t_landau pg k om p m mq beta mu f0

/-- qcd/thermal.rs l.59-69. -/
noncomputable def dressing_l_inv_zero_temp_landau {T : Type} [Num T] [NumDom T] (pg : PIntegrator) (k : Consts ℝ) (om : T) (p : ℝ) (m : ℝ) (mq : ℝ) (mu : ℝ) (f0 : ℝ) : PV ℂ :=
  let sdim : PV T := (PV.val om) * (PV.val om) + (PV.ofR ((PV.val p) * (PV.val p)) : PV T)
  let s : PV T := sdim / (PV.ofR ((PV.val m) * (PV.val m)) : PV T)
  PV.toC ((PV.bind (PV.val mq / PV.val m) fun r => Qcd.qcd.gluon.dressing_inv_landau k s r f0)) - PV.toC (sdim⁻¹ * (PV.ofR (PV.val PREFACTOR) : PV T) * (PV.ofR (PV.val (k.nf : ℝ)) : PV T)) * Qcd.P.gluon.thermal.polarization_quark_l_thermal_part_zero_temp_landau pg k om p mq mu

/-- qcd/thermal.rs l.71-81. -/
noncomputable def dressing_t_inv_zero_temp_landau {T : Type} [Num T] [NumDom T] (pg : PIntegrator) (k : Consts ℝ) (om : T) (p : ℝ) (m : ℝ) (mq : ℝ) (mu : ℝ) (f0 : ℝ) : PV ℂ :=
  let sdim : PV T := (PV.val om) * (PV.val om) + (PV.ofR ((PV.val p) * (PV.val p)) : PV T)
  let s : PV T := sdim / (PV.ofR ((PV.val m) * (PV.val m)) : PV T)
  PV.toC ((PV.bind (PV.val mq / PV.val m) fun r => Qcd.qcd.gluon.dressing_inv_landau k s r f0)) - PV.toC (sdim⁻¹ * (PV.ofR (PV.val PREFACTOR) : PV T) * (PV.ofR (PV.val (k.nf : ℝ)) : PV T)) * Qcd.P.gluon.thermal.polarization_quark_t_thermal_part_zero_temp_landau pg k om p mq mu

/-- qcd/thermal.rs l.83-85. -/
noncomputable def dressing_l_zero_temp_landau {T : Type} [Num T] [NumDom T] (pg : PIntegrator) (k : Consts ℝ) (om : T) (p : ℝ) (m : ℝ) (mq : ℝ) (mu : ℝ) (f0 : ℝ) : PV ℂ :=
  (dressing_l_inv_zero_temp_landau pg k om p m mq mu f0)⁻¹

/-- qcd/thermal.rs l.87-89. -/
noncomputable def dressing_t_zero_temp_landau {T : Type} [Num T] [NumDom T] (pg : PIntegrator) (k : Consts ℝ) (om : T) (p : ℝ) (m : ℝ) (mq : ℝ) (mu : ℝ) (f0 : ℝ) : PV ℂ :=
  (dressing_t_inv_zero_temp_landau pg k om p m mq mu f0)⁻¹

/-- qcd/thermal.rs l.91-93. -/
noncomputable def propagator_l_zero_temp_landau {T : Type} [Num T] [NumDom T] (pg : PIntegrator) (k : Consts ℝ) (om : T) (p : ℝ) (m : ℝ) (mq : ℝ) (mu : ℝ) (f0 : ℝ) : PV ℂ :=
  PV.toC ((PV.val om) * (PV.val om) + (PV.ofR ((PV.val p) * (PV.val p)) : PV T))⁻¹ * dressing_l_zero_temp_landau pg k om p m mq mu f0

/-- qcd/thermal.rs l.95-97. -/
noncomputable def propagator_t_zero_temp_landau {T : Type} [Num T] [NumDom T] (pg : PIntegrator) (k : Consts ℝ) (om : T) (p : ℝ) (m : ℝ) (mq : ℝ) (mu : ℝ) (f0 : ℝ) : PV ℂ :=
  PV.toC ((PV.val om) * (PV.val om) + (PV.ofR ((PV.val p) * (PV.val p)) : PV T))⁻¹ * dressing_t_zero_temp_landau pg k om p m mq mu f0

/-- qcd/thermal.rs l.99-124. -/
noncomputable def dressing_l_inv_landau_w_field_config {T1 T2 : Type} [Num T1] [NumDom T1] [Num T2] [NumDom T2] (pg : PIntegrator) (k : Consts ℝ) (om : T1) (p : T2) (beta : ℝ) (mu : ℝ) (f0 : ℝ) (config : FieldConfig) : PV ℂ :=
  let m : ℝ := config.gluon
  let sdim : PV ℂ := PV.toC ((PV.val om) * (PV.val om)) + PV.toC ((PV.val p) * (PV.val p))
  let s : PV ℂ := sdim / (PV.ofR ((PV.val m) * (PV.val m)) : PV ℂ)
  let quark_contribution : PV ℂ := (config.quarks_internal.map (fun qi => Qcd.P.gluon.thermal.polarization_quark_l_thermal_part_landau pg k om p qi.mq beta mu * (PV.ofR (PV.val (qi.nf : ℝ)) : PV ℂ))).sum
  Qcd.qcd.gluon.dressing_inv_landau_w_field_config k s f0 config - sdim⁻¹ * (PV.ofR (PV.val PREFACTOR) : PV ℂ) * (Qcd.P.gluon.thermal.polarization_glue_l_thermal_part_landau pg k om p m beta + quark_contribution)

/-- qcd/thermal.rs l.126-151. -/
noncomputable def dressing_t_inv_landau_w_field_config {T : Type} [Num T] [NumDom T] (pg : PIntegrator) (k : Consts ℝ) (om : T) (p : ℝ) (beta : ℝ) (mu : ℝ) (f0 : ℝ) (config : FieldConfig) : PV ℂ :=
  let m : ℝ := config.gluon
  let sdim : PV T := (PV.val om) * (PV.val om) + (PV.ofR ((PV.val p) * (PV.val p)) : PV T)
  let s : PV T := sdim / (PV.ofR ((PV.val m) * (PV.val m)) : PV T)
  let quark_contribution : PV ℂ := (config.quarks_internal.map (fun qi => Qcd.P.gluon.thermal.polarization_quark_t_thermal_part_landau pg k om p qi.mq beta mu * (PV.ofR (PV.val (qi.nf : ℝ)) : PV ℂ))).sum
  PV.toC (Qcd.qcd.gluon.dressing_inv_landau_w_field_config k s f0 config) - PV.toC (sdim⁻¹ * (PV.ofR (PV.val PREFACTOR) : PV T)) * (Qcd.P.gluon.thermal.polarization_glue_t_thermal_part_landau pg k om p m beta + quark_contribution)

/-- qcd/thermal.rs l.153-162. -/
noncomputable def dressing_l_landau_w_field_config {T1 T2 : Type} [Num T1] [NumDom T1] [Num T2] [NumDom T2] (pg : PIntegrator) (k : Consts ℝ) (om : T1) (p : T2) (beta : ℝ) (mu : ℝ) (f0 : ℝ) (config : FieldConfig) : PV ℂ :=
  (dressing_l_inv_landau_w_field_config pg k om p beta mu f0 config)⁻¹

/-- qcd/thermal.rs l.164-173. -/
noncomputable def dressing_t_landau_w_field_config {T : Type} [Num T] [NumDom T] (pg : PIntegrator) (k : Consts ℝ) (om : T) (p : ℝ) (beta : ℝ) (mu : ℝ) (f0 : ℝ) (config : FieldConfig) : PV ℂ :=
  (dressing_t_inv_landau_w_field_config pg k om p beta mu f0 config)⁻¹

/-- qcd/thermal.rs l.175-185. -/
noncomputable def propagator_l_landau_w_field_config {T1 T2 : Type} [Num T1] [NumDom T1] [Num T2] [NumDom T2] (pg : PIntegrator) (k : Consts ℝ) (om : T1) (p : T2) (beta : ℝ) (mu : ℝ) (f0 : ℝ) (config : FieldConfig) : PV ℂ :=
  (PV.toC ((PV.val om) * (PV.val om)) + PV.toC ((PV.val p) * (PV.val p)))⁻¹ * dressing_l_landau_w_field_config pg k om p beta mu f0 config

/-- qcd/thermal.rs l.187-196. -/
noncomputable def propagator_t_landau_w_field_config {T : Type} [Num T] [NumDom T] (pg : PIntegrator) (k : Consts ℝ) (om : T) (p : ℝ) (beta : ℝ) (mu : ℝ) (f0 : ℝ) (config : FieldConfig) : PV ℂ :=
  PV.toC ((PV.val om) * (PV.val om) + (PV.ofR ((PV.val p) * (PV.val p)) : PV T))⁻¹ * dressing_t_landau_w_field_config pg k om p beta mu f0 config

/-- qcd/thermal.rs l.198-219. -/
noncomputable def dressing_l_inv_zero_temp_landau_w_field_config {T1 T2 : Type} [Num T1] [NumDom T1] [Num T2] [NumDom T2] (pg : PIntegrator) (k : Consts ℝ) (om : T1) (p : T2) (mu : ℝ) (f0 : ℝ) (config : FieldConfig) : PV ℂ :=
  let m : ℝ := config.gluon
  let sdim : PV ℂ := PV.toC ((PV.val om) * (PV.val om)) + PV.toC ((PV.val p) * (PV.val p))
  let s : PV ℂ := sdim / (PV.ofR ((PV.val m) * (PV.val m)) : PV ℂ)
  let quark_contribution : PV ℂ := (config.quarks_internal.map (fun qi => Qcd.P.gluon.thermal.polarization_quark_l_thermal_part_zero_temp_landau pg k om p qi.mq mu * (PV.ofR (PV.val (qi.nf : ℝ)) : PV ℂ))).sum
  Qcd.qcd.gluon.dressing_inv_landau_w_field_config k s f0 config - sdim⁻¹ * (PV.ofR (PV.val PREFACTOR) : PV ℂ) * quark_contribution

/-- qcd/thermal.rs l.221-242. -/
noncomputable def dressing_t_inv_zero_temp_landau_w_field_config {T : Type} [Num T] [NumDom T] (pg : PIntegrator) (k : Consts ℝ) (om : T) (p : ℝ) (mu : ℝ) (f0 : ℝ) (config : FieldConfig) : PV ℂ :=
  let m : ℝ := config.gluon
  let sdim : PV T := (PV.val om) * (PV.val om) + (PV.ofR ((PV.val p) * (PV.val p)) : PV T)
  let s : PV T := sdim / (PV.ofR ((PV.val m) * (PV.val m)) : PV T)
  let quark_contribution : PV ℂ := (config.quarks_internal.map (fun qi => Qcd.P.gluon.thermal.polarization_quark_t_thermal_part_zero_temp_landau pg k om p qi.mq mu * (PV.ofR (PV.val (qi.nf : ℝ)) : PV ℂ))).sum
  PV.toC (Qcd.qcd.gluon.dressing_inv_landau_w_field_config k s f0 config) - PV.toC (sdim⁻¹ * (PV.ofR (PV.val PREFACTOR) : PV T)) * quark_contribution

/-- qcd/thermal.rs l.244-252. -/
noncomputable def dressing_l_zero_temp_landau_w_field_config {T1 T2 : Type} [Num T1] [NumDom T1] [Num T2] [NumDom T2] (pg : PIntegrator) (k : Consts ℝ) (om : T1) (p : T2) (mu : ℝ) (f0 : ℝ) (config : FieldConfig) : PV ℂ :=
  (dressing_l_inv_zero_temp_landau_w_field_config pg k om p mu f0 config)⁻¹

/-- qcd/thermal.rs l.254-262. -/
noncomputable def dressing_t_zero_temp_landau_w_field_config {T : Type} [Num T] [NumDom T] (pg : PIntegrator) (k : Consts ℝ) (om : T) (p : ℝ) (mu : ℝ) (f0 : ℝ) (config : FieldConfig) : PV ℂ :=
  (dressing_t_inv_zero_temp_landau_w_field_config pg k om p mu f0 config)⁻¹

/-- qcd/thermal.rs l.264-273. -/
noncomputable def propagator_l_zero_temp_landau_w_field_config {T1 T2 : Type} [Num T1] [NumDom T1] [Num T2] [NumDom T2] (pg : PIntegrator) (k : Consts ℝ) (om : T1) (p : T2) (mu : ℝ) (f0 : ℝ) (config : FieldConfig) : PV ℂ :=
  (PV.toC ((PV.val om) * (PV.val om)) + PV.toC ((PV.val p) * (PV.val p)))⁻¹ * dressing_l_zero_temp_landau_w_field_config pg k om p mu f0 config

/-- qcd/thermal.rs l.275-283. -/
noncomputable def propagator_t_zero_temp_landau_w_field_config {T : Type} [Num T] [NumDom T] (pg : PIntegrator) (k : Consts ℝ) (om : T) (p : ℝ) (mu : ℝ) (f0 : ℝ) (config : FieldConfig) : PV ℂ :=
  PV.toC ((PV.val om) * (PV.val om) + (PV.ofR ((PV.val p) * (PV.val p)) : PV T))⁻¹ * dressing_t_zero_temp_landau_w_field_config pg k om p mu f0 config

end qcd.thermal.gluon

namespace qcd.thermal.zero_matsubara.gluon

/-- qcd/thermal.rs l.380-392. -/
noncomputable def dressing_l_inv_landau (pg : PIntegrator) (k : Consts ℝ) (p : ℝ) (m : ℝ) (mq : ℝ) (beta : ℝ) (mu : ℝ) (f0 : ℝ) : PV ℝ :=
  let sdim : PV ℝ := (PV.val p) * (PV.val p)
  let s : PV ℝ := sdim / ((PV.val m) * (PV.val m))
  (PV.bind (PV.val mq / PV.val m) fun r => Qcd.qcd.gluon.dressing_inv_landau k s r f0) - (PV.val PREFACTOR) * ((PV.val (k.nf : ℝ)) * Qcd.P.gluon.thermal.zero_matsubara.polarization_quark_l_thermal_part_landau pg k p mq beta mu + Qcd.P.gluon.thermal.zero_matsubara.polarization_glue_l_thermal_part_landau pg k p m beta) / sdim

/-- qcd/thermal.rs l.394-406. -/
noncomputable def dressing_t_inv_landau (pg : PIntegrator) (k : Consts ℝ) (p : ℝ) (m : ℝ) (mq : ℝ) (beta : ℝ) (mu : ℝ) (f0 : ℝ) : PV ℝ :=
  let sdim : PV ℝ := (PV.val p) * (PV.val p)
  let s : PV ℝ := sdim / ((PV.val m) * (PV.val m))
  (PV.bind (PV.val mq / PV.val m) fun r => Qcd.qcd.gluon.dressing_inv_landau k s r f0) - (PV.val PREFACTOR) * ((PV.val (k.nf : ℝ)) * Qcd.P.gluon.thermal.zero_matsubara.polarization_quark_t_thermal_part_landau pg k p mq beta mu + Qcd.P.gluon.thermal.zero_matsubara.polarization_glue_t_thermal_part_landau pg k p m beta) / sdim

/-- qcd/thermal.rs l.408-410. -/
noncomputable def dressing_l_landau (pg : PIntegrator) (k : Consts ℝ) (p : ℝ) (m : ℝ) (mq : ℝ) (beta : ℝ) (mu : ℝ) (f0 : ℝ) : PV ℝ :=
  1 / dressing_l_inv_landau pg k p m mq beta mu f0

/-- qcd/thermal.rs l.412-414. -/
noncomputable def dressing_t_landau (pg : PIntegrator) (k : Consts ℝ) (p : ℝ) (m : ℝ) (mq : ℝ) (beta : ℝ) (mu : ℝ) (f0 : ℝ) : PV ℝ :=
  1 / dressing_t_inv_landau pg k p m mq beta mu f0

/-- qcd/thermal.rs l.416-418. -/
noncomputable def propagator_l_landau (pg : PIntegrator) (k : Consts ℝ) (p : ℝ) (m : ℝ) (mq : ℝ) (beta : ℝ) (mu : ℝ) (f0 : ℝ) : PV ℝ :=
  dressing_l_landau pg k p m mq beta mu f0 / ((PV.val p) * (PV.val p))

/-- qcd/thermal.rs l.420-422. -/
noncomputable def propagator_t_landau (pg : PIntegrator) (k : Consts ℝ) (p : ℝ) (m : ℝ) (mq : ℝ) (beta : ℝ) (mu : ℝ) (f0 : ℝ) : PV ℝ :=
  dressing_t_landau pg k p m mq beta mu f0 / ((PV.val p) * (PV.val p))

/-- qcd/thermal.rs l.424-433. -/
noncomputable def dressing_l_inv_zero_temp_landau (pg : PIntegrator) (k : Consts ℝ) (p : ℝ) (m : ℝ) (mq : ℝ) (mu : ℝ) (f0 : ℝ) : PV ℝ :=
  let s : PV ℝ := (PV.val p) * (PV.val p) / ((PV.val m) * (PV.val m))
  (PV.bind (PV.val mq / PV.val m) fun r => Qcd.qcd.gluon.dressing_inv_landau k s r f0) - (PV.val PREFACTOR) * (PV.val (k.nf : ℝ)) * Qcd.P.gluon.thermal.zero_matsubara.polarization_quark_l_thermal_part_zero_temp_landau pg k p mq mu / ((PV.val p) * (PV.val p))

/-- qcd/thermal.rs l.435-444. -/
noncomputable def dressing_t_inv_zero_temp_landau (pg : PIntegrator) (k : Consts ℝ) (p : ℝ) (m : ℝ) (mq : ℝ) (mu : ℝ) (f0 : ℝ) : PV ℝ :=
  let s : PV ℝ := (PV.val p) * (PV.val p) / ((PV.val m) * (PV.val m))
  (PV.bind (PV.val mq / PV.val m) fun r => Qcd.qcd.gluon.dressing_inv_landau k s r f0) - (PV.val PREFACTOR) * (PV.val (k.nf : ℝ)) * Qcd.P.gluon.thermal.zero_matsubara.polarization_quark_t_thermal_part_zero_temp_landau pg k p mq mu / ((PV.val p) * (PV.val p))

/-- qcd/thermal.rs l.446-448. -/
noncomputable def dressing_l_zero_temp_landau (pg : PIntegrator) (k : Consts ℝ) (p : ℝ) (m : ℝ) (mq : ℝ) (mu : ℝ) (f0 : ℝ) : PV ℝ :=
  1 / dressing_l_inv_zero_temp_landau pg k p m mq mu f0

/-- qcd/thermal.rs l.450-452. -/
noncomputable def dressing_t_zero_temp_landau (pg : PIntegrator) (k : Consts ℝ) (p : ℝ) (m : ℝ) (mq : ℝ) (mu : ℝ) (f0 : ℝ) : PV ℝ :=
  1 / dressing_t_inv_zero_temp_landau pg k p m mq mu f0

/-- qcd/thermal.rs l.454-456. -/
noncomputable def propagator_l_zero_temp_landau (pg : PIntegrator) (k : Consts ℝ) (p : ℝ) (m : ℝ) (mq : ℝ) (mu : ℝ) (f0 : ℝ) : PV ℝ :=
  dressing_l_zero_temp_landau pg k p m mq mu f0 / ((PV.val p) * (PV.val p))

/-- qcd/thermal.rs l.458-460. -/
noncomputable def propagator_t_zero_temp_landau (pg : PIntegrator) (k : Consts ℝ) (p : ℝ) (m : ℝ) (mq : ℝ) (mu : ℝ) (f0 : ℝ) : PV ℝ :=
  dressing_t_zero_temp_landau pg k p m mq mu f0 / ((PV.val p) * (PV.val p))

/-- qcd/thermal.rs l.462-486. -/
noncomputable def dressing_l_inv_landau_w_field_config (pg : PIntegrator) (k : Consts ℝ) (p : ℝ) (beta : ℝ) (mu : ℝ) (f0 : ℝ) (config : FieldConfig) : PV ℝ :=
  let m : ℝ := config.gluon
  let sdim : PV ℝ := (PV.val p) * (PV.val p)
  let s : PV ℝ := sdim / ((PV.val m) * (PV.val m))
  let quark_contribution : PV ℝ := (config.quarks_internal.map (fun qi => Qcd.P.gluon.thermal.zero_matsubara.polarization_quark_l_thermal_part_landau pg k p qi.mq beta mu * (PV.val (qi.nf : ℝ)))).sum
  Qcd.qcd.gluon.dressing_inv_landau_w_field_config k s f0 config - (PV.val PREFACTOR) * (Qcd.P.gluon.thermal.zero_matsubara.polarization_glue_l_thermal_part_landau pg k p m beta + quark_contribution) / sdim

/-- qcd/thermal.rs l.488-512. -/
noncomputable def dressing_t_inv_landau_w_field_config (pg : PIntegrator) (k : Consts ℝ) (p : ℝ) (beta : ℝ) (mu : ℝ) (f0 : ℝ) (config : FieldConfig) : PV ℝ :=
  let m : ℝ := config.gluon
  let sdim : PV ℝ := (PV.val p) * (PV.val p)
  let s : PV ℝ := sdim / ((PV.val m) * (PV.val m))
  let quark_contribution : PV ℝ := (config.quarks_internal.map (fun qi => Qcd.P.gluon.thermal.zero_matsubara.polarization_quark_t_thermal_part_landau pg k p qi.mq beta mu * (PV.val (qi.nf : ℝ)))).sum
  Qcd.qcd.gluon.dressing_inv_landau_w_field_config k s f0 config - (PV.val PREFACTOR) * (Qcd.P.gluon.thermal.zero_matsubara.polarization_glue_t_thermal_part_landau pg k p m beta + quark_contribution) / sdim

/-- qcd/thermal.rs l.514-522. -/
noncomputable def dressing_l_landau_w_field_config (pg : PIntegrator) (k : Consts ℝ) (p : ℝ) (beta : ℝ) (mu : ℝ) (f0 : ℝ) (config : FieldConfig) : PV ℝ :=
  1 / dressing_l_inv_landau_w_field_config pg k p beta mu f0 config

/-- qcd/thermal.rs l.524-532. -/
noncomputable def dressing_t_landau_w_field_config (pg : PIntegrator) (k : Consts ℝ) (p : ℝ) (beta : ℝ) (mu : ℝ) (f0 : ℝ) (config : FieldConfig) : PV ℝ :=
  1 / dressing_t_inv_landau_w_field_config pg k p beta mu f0 config

/-- qcd/thermal.rs l.534-542. -/
noncomputable def propagator_l_landau_w_field_config (pg : PIntegrator) (k : Consts ℝ) (p : ℝ) (beta : ℝ) (mu : ℝ) (f0 : ℝ) (config : FieldConfig) : PV ℝ :=
  dressing_l_landau_w_field_config pg k p beta mu f0 config / ((PV.val p) * (PV.val p))

/-- qcd/thermal.rs l.544-552. -/
noncomputable def propagator_t_landau_w_field_config (pg : PIntegrator) (k : Consts ℝ) (p : ℝ) (beta : ℝ) (mu : ℝ) (f0 : ℝ) (config : FieldConfig) : PV ℝ :=
  dressing_t_landau_w_field_config pg k p beta mu f0 config / ((PV.val p) * (PV.val p))

/-- qcd/thermal.rs l.554-573. -/
noncomputable def dressing_l_inv_zero_temp_landau_w_field_config (pg : PIntegrator) (k : Consts ℝ) (p : ℝ) (mu : ℝ) (f0 : ℝ) (config : FieldConfig) : PV ℝ :=
  let m : ℝ := config.gluon
  let s : PV ℝ := (PV.val p) * (PV.val p) / ((PV.val m) * (PV.val m))
  let quark_contribution : PV ℝ := (config.quarks_internal.map (fun qi => Qcd.P.gluon.thermal.zero_matsubara.polarization_quark_l_thermal_part_zero_temp_landau pg k p qi.mq mu * (PV.val (qi.nf : ℝ)))).sum
  Qcd.qcd.gluon.dressing_inv_landau_w_field_config k s f0 config - (PV.val PREFACTOR) * quark_contribution / ((PV.val p) * (PV.val p))

/-- qcd/thermal.rs l.575-594. -/
noncomputable def dressing_t_inv_zero_temp_landau_w_field_config (pg : PIntegrator) (k : Consts ℝ) (p : ℝ) (mu : ℝ) (f0 : ℝ) (config : FieldConfig) : PV ℝ :=
  let m : ℝ := config.gluon
  let s : PV ℝ := (PV.val p) * (PV.val p) / ((PV.val m) * (PV.val m))
  let quark_contribution : PV ℝ := (config.quarks_internal.map (fun qi => Qcd.P.gluon.thermal.zero_matsubara.polarization_quark_t_thermal_part_zero_temp_landau pg k p qi.mq mu * (PV.val (qi.nf : ℝ)))).sum
  Qcd.qcd.gluon.dressing_inv_landau_w_field_config k s f0 config - (PV.val PREFACTOR) * quark_contribution / ((PV.val p) * (PV.val p))

/-- qcd/thermal.rs l.596-603. -/
noncomputable def dressing_l_zero_temp_landau_w_field_config (pg : PIntegrator) (k : Consts ℝ) (p : ℝ) (mu : ℝ) (f0 : ℝ) (config : FieldConfig) : PV ℝ :=
  1 / dressing_l_inv_zero_temp_landau_w_field_config pg k p mu f0 config

/-- qcd/thermal.rs l.605-612. -/
noncomputable def dressing_t_zero_temp_landau_w_field_config (pg : PIntegrator) (k : Consts ℝ) (p : ℝ) (mu : ℝ) (f0 : ℝ) (config : FieldConfig) : PV ℝ :=
  1 / dressing_t_inv_zero_temp_landau_w_field_config pg k p mu f0 config

/-- qcd/thermal.rs l.614-621. -/
noncomputable def propagator_l_zero_temp_landau_w_field_config (pg : PIntegrator) (k : Consts ℝ) (p : ℝ) (mu : ℝ) (f0 : ℝ) (config : FieldConfig) : PV ℝ :=
  dressing_l_zero_temp_landau_w_field_config pg k p mu f0 config / ((PV.val p) * (PV.val p))

/-- qcd/thermal.rs l.623-630. -/
noncomputable def propagator_t_zero_temp_landau_w_field_config (pg : PIntegrator) (k : Consts ℝ) (p : ℝ) (mu : ℝ) (f0 : ℝ) (config : FieldConfig) : PV ℝ :=
  dressing_t_zero_temp_landau_w_field_config pg k p mu f0 config / ((PV.val p) * (PV.val p))

end qcd.thermal.zero_matsubara.gluon

namespace qcd.thermal.zero_momentum.gluon

/-- qcd/thermal.rs l.651-662. -/
noncomputable def dressing_l_inv_landau {T : Type} [Num T] [NumDom T] (pg : PIntegrator) (k : Consts ℝ) (om : T) (m : ℝ) (mq : ℝ) (beta : ℝ) (mu : ℝ) (f0 : ℝ) : PV ℂ :=
  let sdim : PV T := (PV.val om) * (PV.val om)
  let s : PV T := sdim / (PV.ofR ((PV.val m) * (PV.val m)) : PV T)
  PV.toC ((PV.bind (PV.val mq / PV.val m) fun r => Qcd.qcd.gluon.dressing_inv_landau k s r f0)) - PV.toC (sdim⁻¹ * (PV.ofR (PV.val PREFACTOR) : PV T)) * (Qcd.P.gluon.thermal.zero_momentum.polarization_glue_l_thermal_part_landau pg k om m beta + (PV.ofR (PV.val (k.nf : ℝ)) : PV ℂ) * Qcd.P.gluon.thermal.zero_momentum.polarization_quark_l_thermal_part_landau pg k om mq beta mu)

/-- qcd/thermal.rs l.664-675. -/
noncomputable def dressing_t_inv_landau {T : Type} [Num T] [NumDom T] (pg : PIntegrator) (k : Consts ℝ) (om : T) (m : ℝ) (mq : ℝ) (beta : ℝ) (mu : ℝ) (f0 : ℝ) : PV ℂ :=
  let sdim : PV T := (PV.val om) * (PV.val om)
  let s : PV T := sdim / (PV.ofR ((PV.val m) * (PV.val m)) : PV T)
  PV.toC ((PV.bind (PV.val mq / PV.val m) fun r => Qcd.qcd.gluon.dressing_inv_landau k s r f0)) - PV.toC (sdim⁻¹ * (PV.ofR (PV.val PREFACTOR) : PV T)) * (Qcd.P.gluon.thermal.zero_momentum.polarization_glue_t_thermal_part_landau pg k om m beta + (PV.ofR (PV.val (k.nf : ℝ)) : PV ℂ) * Qcd.P.gluon.thermal.zero_momentum.polarization_quark_t_thermal_part_landau pg k om mq beta mu)

/-- qcd/thermal.rs l.677-679. -/
noncomputable def dressing_l_landau {T : Type} [Num T] [NumDom T] (pg : PIntegrator) (k : Consts ℝ) (om : T) (m : ℝ) (mq : ℝ) (beta : ℝ) (mu : ℝ) (f0 : ℝ) : PV ℂ :=
  (dressing_l_inv_landau pg k om m mq beta mu f0)⁻¹

/-- qcd/thermal.rs l.681-683. -/
noncomputable def dressing_t_landau {T : Type} [Num T] [NumDom T] (pg : PIntegrator) (k : Consts ℝ) (om : T) (m : ℝ) (mq : ℝ) (beta : ℝ) (mu : ℝ) (f0 : ℝ) : PV ℂ :=
  (dressing_t_inv_landau pg k om m mq beta mu f0)⁻¹

/-- qcd/thermal.rs l.685-687. -/
noncomputable def propagator_l_landau {T : Type} [Num T] [NumDom T] (pg : PIntegrator) (k : Consts ℝ) (om : T) (m : ℝ) (mq : ℝ) (beta : ℝ) (mu : ℝ) (f0 : ℝ) : PV ℂ :=
  PV.toC ((PV.val om) * (PV.val om))⁻¹ * dressing_l_landau pg k om m mq beta mu f0

/-- qcd/thermal.rs l.689-691. -/
noncomputable def propagator_t_landau {T : Type} [Num T] [NumDom T] (pg : PIntegrator) (k : Consts ℝ) (om : T) (m : ℝ) (mq : ℝ) (beta : ℝ) (mu : ℝ) (f0 : ℝ) : PV ℂ :=
  PV.toC ((PV.val om) * (PV.val om))⁻¹ * dressing_t_landau pg k om m mq beta mu f0

/-- qcd/thermal.rs l.693-703. -/
noncomputable def dressing_l_inv_zero_temp_landau {T : Type} [Num T] [NumDom T] (pg : PIntegrator) (k : Consts ℝ) (om : T) (m : ℝ) (mq : ℝ) (mu : ℝ) (f0 : ℝ) : PV ℂ :=
  let sdim : PV T := (PV.val om) * (PV.val om)
  let s : PV T := sdim / (PV.ofR ((PV.val m) * (PV.val m)) : PV T)
  PV.toC ((PV.bind (PV.val mq / PV.val m) fun r => Qcd.qcd.gluon.dressing_inv_landau k s r f0)) - PV.toC (sdim⁻¹ * (PV.ofR (PV.val PREFACTOR) : PV T) * (PV.ofR (PV.val (k.nf : ℝ)) : PV T)) * Qcd.P.gluon.thermal.zero_momentum.polarization_quark_l_thermal_part_zero_temp_landau pg k om mq mu

/-- qcd/thermal.rs l.705-715. -/
noncomputable def dressing_t_inv_zero_temp_landau {T : Type} [Num T] [NumDom T] (pg : PIntegrator) (k : Consts ℝ) (om : T) (m : ℝ) (mq : ℝ) (mu : ℝ) (f0 : ℝ) : PV ℂ :=
  let sdim : PV T := (PV.val om) * (PV.val om)
  let s : PV T := sdim / (PV.ofR ((PV.val m) * (PV.val m)) : PV T)
  PV.toC ((PV.bind (PV.val mq / PV.val m) fun r => Qcd.qcd.gluon.dressing_inv_landau k s r f0)) - PV.toC (sdim⁻¹ * (PV.ofR (PV.val PREFACTOR) : PV T) * (PV.ofR (PV.val (k.nf : ℝ)) : PV T)) * Qcd.P.gluon.thermal.zero_momentum.polarization_quark_t_thermal_part_zero_temp_landau pg k om mq mu

/-- qcd/thermal.rs l.717-719. -/
noncomputable def dressing_l_zero_temp_landau {T : Type} [Num T] [NumDom T] (pg : PIntegrator) (k : Consts ℝ) (om : T) (m : ℝ) (mq : ℝ) (mu : ℝ) (f0 : ℝ) : PV ℂ :=
  (dressing_l_inv_zero_temp_landau pg k om m mq mu f0)⁻¹

/-- qcd/thermal.rs l.721-723. -/
noncomputable def dressing_t_zero_temp_landau {T : Type} [Num T] [NumDom T] (pg : PIntegrator) (k : Consts ℝ) (om : T) (m : ℝ) (mq : ℝ) (mu : ℝ) (f0 : ℝ) : PV ℂ :=
  (dressing_t_inv_zero_temp_landau pg k om m mq mu f0)⁻¹

/-- qcd/thermal.rs l.725-727. -/
noncomputable def propagator_l_zero_temp_landau {T : Type} [Num T] [NumDom T] (pg : PIntegrator) (k : Consts ℝ) (om : T) (m : ℝ) (mq : ℝ) (mu : ℝ) (f0 : ℝ) : PV ℂ :=
  PV.toC ((PV.val om) * (PV.val om))⁻¹ * dressing_l_zero_temp_landau pg k om m mq mu f0

/-- qcd/thermal.rs l.729-731. -/
noncomputable def propagator_t_zero_temp_landau {T : Type} [Num T] [NumDom T] (pg : PIntegrator) (k : Consts ℝ) (om : T) (m : ℝ) (mq : ℝ) (mu : ℝ) (f0 : ℝ) : PV ℂ :=
  PV.toC ((PV.val om) * (PV.val om))⁻¹ * dressing_t_zero_temp_landau pg k om m mq mu f0

/-- qcd/thermal.rs l.733-757. -/
noncomputable def dressing_l_inv_landau_w_field_config {T : Type} [Num T] [NumDom T] (pg : PIntegrator) (k : Consts ℝ) (om : T) (beta : ℝ) (mu : ℝ) (f0 : ℝ) (config : FieldConfig) : PV ℂ :=
  let m : ℝ := config.gluon
  let sdim : PV T := (PV.val om) * (PV.val om)
  let s : PV T := sdim / (PV.ofR ((PV.val m) * (PV.val m)) : PV T)
  let quark_contribution : PV ℂ := (config.quarks_internal.map (fun qi => Qcd.P.gluon.thermal.zero_momentum.polarization_quark_l_thermal_part_landau pg k om qi.mq beta mu * (PV.ofR (PV.val (qi.nf : ℝ)) : PV ℂ))).sum
  PV.toC (Qcd.qcd.gluon.dressing_inv_landau_w_field_config k s f0 config) - PV.toC (sdim⁻¹ * (PV.ofR (PV.val PREFACTOR) : PV T)) * (Qcd.P.gluon.thermal.zero_momentum.polarization_glue_l_thermal_part_landau pg k om m beta + quark_contribution)

/-- qcd/thermal.rs l.759-783. -/
noncomputable def dressing_t_inv_landau_w_field_config {T : Type} [Num T] [NumDom T] (pg : PIntegrator) (k : Consts ℝ) (om : T) (beta : ℝ) (mu : ℝ) (f0 : ℝ) (config : FieldConfig) : PV ℂ :=
  let m : ℝ := config.gluon
  let sdim : PV T := (PV.val om) * (PV.val om)
  let s : PV T := sdim / (PV.ofR ((PV.val m) * (PV.val m)) : PV T)
  let quark_contribution : PV ℂ := (config.quarks_internal.map (fun qi => Qcd.P.gluon.thermal.zero_momentum.polarization_quark_t_thermal_part_landau pg k om qi.mq beta mu * (PV.ofR (PV.val (qi.nf : ℝ)) : PV ℂ))).sum
  PV.toC (Qcd.qcd.gluon.dressing_inv_landau_w_field_config k s f0 config) - PV.toC (sdim⁻¹ * (PV.ofR (PV.val PREFACTOR) : PV T)) * (Qcd.P.gluon.thermal.zero_momentum.polarization_glue_t_thermal_part_landau pg k om m beta + quark_contribution)

/-- qcd/thermal.rs l.785-793. -/
noncomputable def dressing_l_landau_w_field_config {T : Type} [Num T] [NumDom T] (pg : PIntegrator) (k : Consts ℝ) (om : T) (beta : ℝ) (mu : ℝ) (f0 : ℝ) (config : FieldConfig) : PV ℂ :=
  (dressing_l_inv_landau_w_field_config pg k om beta mu f0 config)⁻¹

/-- qcd/thermal.rs l.795-803. -/
noncomputable def dressing_t_landau_w_field_config {T : Type} [Num T] [NumDom T] (pg : PIntegrator) (k : Consts ℝ) (om : T) (beta : ℝ) (mu : ℝ) (f0 : ℝ) (config : FieldConfig) : PV ℂ :=
  (dressing_t_inv_landau_w_field_config pg k om beta mu f0 config)⁻¹

/-- qcd/thermal.rs l.805-813. -/
noncomputable def propagator_l_landau_w_field_config {T : Type} [Num T] [NumDom T] (pg : PIntegrator) (k : Consts ℝ) (om : T) (beta : ℝ) (mu : ℝ) (f0 : ℝ) (config : FieldConfig) : PV ℂ :=
  PV.toC ((PV.val om) * (PV.val om))⁻¹ * dressing_l_landau_w_field_config pg k om beta mu f0 config

/-- qcd/thermal.rs l.815-823. -/
noncomputable def propagator_t_landau_w_field_config {T : Type} [Num T] [NumDom T] (pg : PIntegrator) (k : Consts ℝ) (om : T) (beta : ℝ) (mu : ℝ) (f0 : ℝ) (config : FieldConfig) : PV ℂ :=
  PV.toC ((PV.val om) * (PV.val om))⁻¹ * dressing_t_landau_w_field_config pg k om beta mu f0 config

/-- qcd/thermal.rs l.825-845. -/
noncomputable def dressing_l_inv_zero_temp_landau_w_field_config {T : Type} [Num T] [NumDom T] (pg : PIntegrator) (k : Consts ℝ) (om : T) (mu : ℝ) (f0 : ℝ) (config : FieldConfig) : PV ℂ :=
  let m : ℝ := config.gluon
  let sdim : PV T := (PV.val om) * (PV.val om)
  let s : PV T := sdim / (PV.ofR ((PV.val m) * (PV.val m)) : PV T)
  let quark_contribution : PV ℂ := (config.quarks_internal.map (fun qi => Qcd.P.gluon.thermal.zero_momentum.polarization_quark_l_thermal_part_zero_temp_landau pg k om qi.mq mu * (PV.ofR (PV.val (qi.nf : ℝ)) : PV ℂ))).sum
  PV.toC (Qcd.qcd.gluon.dressing_inv_landau_w_field_config k s f0 config) - PV.toC (sdim⁻¹ * (PV.ofR (PV.val PREFACTOR) : PV T)) * quark_contribution

/-- qcd/thermal.rs l.847-867. -/
noncomputable def dressing_t_inv_zero_temp_landau_w_field_config {T : Type} [Num T] [NumDom T] (pg : PIntegrator) (k : Consts ℝ) (om : T) (mu : ℝ) (f0 : ℝ) (config : FieldConfig) : PV ℂ :=
  let m : ℝ := config.gluon
  let sdim : PV T := (PV.val om) * (PV.val om)
  let s : PV T := sdim / (PV.ofR ((PV.val m) * (PV.val m)) : PV T)
  let quark_contribution : PV ℂ := (config.quarks_internal.map (fun qi => Qcd.P.gluon.thermal.zero_momentum.polarization_quark_t_thermal_part_zero_temp_landau pg k om qi.mq mu * (PV.ofR (PV.val (qi.nf : ℝ)) : PV ℂ))).sum
  PV.toC (Qcd.qcd.gluon.dressing_inv_landau_w_field_config k s f0 config) - PV.toC (sdim⁻¹ * (PV.ofR (PV.val PREFACTOR) : PV T)) * quark_contribution

/-- qcd/thermal.rs l.869-876. -/
noncomputable def dressing_l_zero_temp_landau_w_field_config {T : Type} [Num T] [NumDom T] (pg : PIntegrator) (k : Consts ℝ) (om : T) (mu : ℝ) (f0 : ℝ) (config : FieldConfig) : PV ℂ :=
  (dressing_l_inv_zero_temp_landau_w_field_config pg k om mu f0 config)⁻¹

/-- qcd/thermal.rs l.878-885. -/
noncomputable def dressing_t_zero_temp_landau_w_field_config {T : Type} [Num T] [NumDom T] (pg : PIntegrator) (k : Consts ℝ) (om : T) (mu : ℝ) (f0 : ℝ) (config : FieldConfig) : PV ℂ :=
  (dressing_t_inv_zero_temp_landau_w_field_config pg k om mu f0 config)⁻¹

/-- qcd/thermal.rs l.887-894. -/
noncomputable def propagator_l_zero_temp_landau_w_field_config {T : Type} [Num T] [NumDom T] (pg : PIntegrator) (k : Consts ℝ) (om : T) (mu : ℝ) (f0 : ℝ) (config : FieldConfig) : PV ℂ :=
  PV.toC ((PV.val om) * (PV.val om))⁻¹ * dressing_l_zero_temp_landau_w_field_config pg k om mu f0 config

/-- qcd/thermal.rs l.896-903. -/
noncomputable def propagator_t_zero_temp_landau_w_field_config {T : Type} [Num T] [NumDom T] (pg : PIntegrator) (k : Consts ℝ) (om : T) (mu : ℝ) (f0 : ℝ) (config : FieldConfig) : PV ℂ :=
  PV.toC ((PV.val om) * (PV.val om))⁻¹ * dressing_t_zero_temp_landau_w_field_config pg k om mu f0 config

end qcd.thermal.zero_momentum.gluon

end Qcd.P
