import Verif.Model.Qcd
import Verif.Model.ThermalParts

/-!
# The C interface: the `extern "C"` functions of all modules, re-exported by `qcd-sme/src/ffi.rs`

A process linked with the shared library is a sequence of calls by symbol name. `C` is passed by value as two doubles: its
values are read as `ℂ`. `u32` is read as `ℕ`. File names below are relative to `qcd-sme/src`.
-/

namespace Qcd
open consts

/-- The types of arguments and results in the C header: `R` (types.rs l.9), `C` (l.12), `u32` (l.17, l.22). -/
inductive Ty where
  | r | c | n
  deriving DecidableEq

/-- Their values (types.rs l.9, 12, 17, 22). -/
@[reducible] def Ty.Carrier : Ty → Type
  | .r => ℝ
  | .c => ℂ
  | .n => ℕ

/-- A value with its type (types.rs l.8-22). -/
structure Val where
  ty : Ty
  val : ty.Carrier

/-- A C function with the given arguments and result (the functions of ffi.rs l.3-6). -/
@[reducible] def Ty.Fn : List Ty → Ty → Type
  | [], t => t.Carrier
  | a :: as, t => a.Carrier → Ty.Fn as t

/-- Call with a list of arguments; `none` if number or types of the arguments are wrong (undefined behaviour in C) (the calls of ffi.rs l.3-6). -/
def Ty.apply : (as : List Ty) → {t : Ty} → Ty.Fn as t → List Val → Option t.Carrier
  | [], _, f, [] => some f
  | a :: as, _, f, v :: vs => if h : v.ty = a then Ty.apply as (f (h ▸ v.val)) vs else none
  | _, _, _, _ => none

/-- An exported function that reads the global constants and returns a value (ffi.rs l.3-6). -/
structure Export where
  symbol : String
  args : List Ty
  ret : Ty
  fn : Consts ℝ → Ty.Fn args ret

namespace ffi

/-- common/mod.rs l.52-54. -/
noncomputable def energy_squared (p : ℝ) (m : ℝ) : ℝ :=
  Qcd.energy_squared p m

/-- common/mod.rs l.57-59. -/
noncomputable def energy (p : ℝ) (m : ℝ) : ℝ :=
  Qcd.energy p m

/-- common/thermal.rs l.115-117. -/
noncomputable def fermi_momentum (m : ℝ) (mu : ℝ) : ℝ :=
  Qcd.fermi_momentum m mu

/-- common/thermal.rs l.120-122. -/
noncomputable def fermi_distribution (en : ℝ) (beta : ℝ) (mu : ℝ) : ℝ :=
  Qcd.fermi_distribution en beta mu

/-- common/thermal.rs l.125-127. -/
noncomputable def fermi_distribution_zero_temp (en : ℝ) (mu : ℝ) : ℝ :=
  Qcd.fermi_distribution_zero_temp en mu

/-- common/thermal.rs l.130-132. -/
noncomputable def fermi_distribution_double (en : ℝ) (beta : ℝ) (mu : ℝ) : ℝ :=
  Qcd.fermi_distribution_double en beta mu

/-- common/thermal.rs l.135-137. -/
noncomputable def fermi_distribution_double_zero_temp (en : ℝ) (mu : ℝ) : ℝ :=
  Qcd.fermi_distribution_double_zero_temp en mu

/-- common/thermal.rs l.140-142. -/
noncomputable def fermi_distribution_zero_chempot (en : ℝ) (beta : ℝ) : ℝ :=
  Qcd.fermi_distribution_zero_chempot en beta

/-- common/thermal.rs l.145-147. -/
noncomputable def bose_distribution (en : ℝ) (beta : ℝ) (mu : ℝ) : ℝ :=
  Qcd.bose_distribution en beta mu

/-- common/thermal.rs l.150-152. -/
noncomputable def bose_distribution_zero_chempot (en : ℝ) (beta : ℝ) : ℝ :=
  Qcd.bose_distribution_zero_chempot en beta

/-- low_level/common/mod.rs l.41-43. -/
noncomputable def statistic_distribution_exponential (en : ℝ) (beta : ℝ) (mu : ℝ) : ℝ :=
  Qcd.statistic_distribution_exponential en beta mu

/-- low_level/common/mod.rs l.46-48. -/
noncomputable def statistic_distribution_exponential_zero_chempot (en : ℝ) (beta : ℝ) : ℝ :=
  Qcd.statistic_distribution_exponential_zero_chempot en beta

/-- low_level/oneloop/ghost.rs l.53-55. -/
noncomputable def oneloop__ghost__g_sep (s : ℝ) (ln_s : ℝ) (ln_s_pl_1 : ℝ) : ℝ :=
  Qcd.ghost.g_sep s ln_s ln_s_pl_1

/-- low_level/oneloop/ghost.rs l.58-60. -/
noncomputable def oneloop__ghost__g (s : ℝ) : ℝ :=
  Qcd.ghost.g s

/-- low_level/oneloop/ghost.rs l.63-65. -/
noncomputable def oneloop__ghost__g_sep__complex (s : ℂ) (ln_s : ℂ) (ln_s_pl_1 : ℂ) : ℂ :=
  Qcd.ghost.g_sep s ln_s ln_s_pl_1

/-- low_level/oneloop/ghost.rs l.68-70. -/
noncomputable def oneloop__ghost__g__complex (s : ℂ) : ℂ :=
  Qcd.ghost.g s

/-- low_level/oneloop/ghost.rs l.73-75. -/
noncomputable def oneloop__ghost__g_xi_sep (ln_s : ℝ) : ℝ :=
  Qcd.ghost.g_xi_sep ln_s

/-- low_level/oneloop/ghost.rs l.78-80. -/
noncomputable def oneloop__ghost__g_xi (s : ℝ) : ℝ :=
  Qcd.ghost.g_xi s

/-- low_level/oneloop/ghost.rs l.83-85. -/
noncomputable def oneloop__ghost__g_xi_sep__complex (ln_s : ℂ) : ℂ :=
  Qcd.ghost.g_xi_sep ln_s

/-- low_level/oneloop/ghost.rs l.88-90. -/
noncomputable def oneloop__ghost__g_xi__complex (s : ℂ) : ℂ :=
  Qcd.ghost.g_xi s

/-- low_level/oneloop/ghost.rs l.93-100. -/
noncomputable def ym__oneloop__ghost__dressing_inv_landau_sep (s : ℝ) (ln_s : ℝ) (ln_s_pl_1 : ℝ) (g0 : ℝ) : ℝ :=
  Qcd.ghost.dressing_inv_landau_sep s ln_s ln_s_pl_1 g0

/-- low_level/oneloop/ghost.rs l.103-110. -/
noncomputable def ym__oneloop__ghost__dressing_inv_landau_sep__complex (s : ℂ) (ln_s : ℂ) (ln_s_pl_1 : ℂ) (g0 : ℝ) : ℂ :=
  Qcd.ghost.dressing_inv_landau_sep s ln_s ln_s_pl_1 g0

/-- low_level/oneloop/ghost.rs l.113-121. -/
noncomputable def ym__oneloop__ghost__dressing_inv_sep (s : ℝ) (ln_s : ℝ) (ln_s_pl_1 : ℝ) (g0 : ℝ) (xi : ℝ) : ℝ :=
  Qcd.ghost.dressing_inv_sep s ln_s ln_s_pl_1 g0 xi

/-- low_level/oneloop/ghost.rs l.124-132. -/
noncomputable def ym__oneloop__ghost__dressing_inv_sep__complex (s : ℂ) (ln_s : ℂ) (ln_s_pl_1 : ℂ) (g0 : ℝ) (xi : ℝ) : ℂ :=
  Qcd.ghost.dressing_inv_sep s ln_s ln_s_pl_1 g0 xi

/-- low_level/oneloop/gluon.rs l.61-63. -/
noncomputable def oneloop__gluon__f_sep (s : ℝ) (ln_s : ℝ) (ln_s_pl_1 : ℝ) : ℝ :=
  Qcd.gluon.f_sep s ln_s ln_s_pl_1

/-- low_level/oneloop/gluon.rs l.66-68. -/
noncomputable def oneloop__gluon__f (s : ℝ) : ℝ :=
  Qcd.gluon.f s

/-- low_level/oneloop/gluon.rs l.71-73. -/
noncomputable def oneloop__gluon__f_sep__complex (s : ℂ) (ln_s : ℂ) (ln_s_pl_1 : ℂ) : ℂ :=
  Qcd.gluon.f_sep s ln_s ln_s_pl_1

/-- low_level/oneloop/gluon.rs l.76-78. -/
noncomputable def oneloop__gluon__f__complex (s : ℂ) : ℂ :=
  Qcd.gluon.f s

/-- low_level/oneloop/gluon.rs l.81-83. -/
noncomputable def oneloop__gluon__f_xi_sep (s : ℝ) (ln_s : ℝ) (ln_s_pl_1 : ℝ) : ℝ :=
  Qcd.gluon.f_xi_sep s ln_s ln_s_pl_1

/-- low_level/oneloop/gluon.rs l.86-88. -/
noncomputable def oneloop__gluon__f_xi (s : ℝ) : ℝ :=
  Qcd.gluon.f_xi s

/-- low_level/oneloop/gluon.rs l.91-93. -/
noncomputable def oneloop__gluon__f_xi_sep__complex (s : ℂ) (ln_s : ℂ) (ln_s_pl_1 : ℂ) : ℂ :=
  Qcd.gluon.f_xi_sep s ln_s ln_s_pl_1

/-- low_level/oneloop/gluon.rs l.96-98. -/
noncomputable def oneloop__gluon__f_xi__complex (s : ℂ) : ℂ :=
  Qcd.gluon.f_xi s

/-- low_level/oneloop/gluon.rs l.101-103. -/
noncomputable def oneloop__gluon__f_q (s : ℝ) : ℝ :=
  Qcd.gluon.f_q s

/-- low_level/oneloop/gluon.rs l.106-108. -/
noncomputable def oneloop__gluon__f_q__complex (s : ℂ) : ℂ :=
  Qcd.gluon.f_q s

/-- low_level/oneloop/gluon.rs l.111-113. -/
noncomputable def oneloop__gluon__f_q_crossed (s : ℝ) : ℝ :=
  Qcd.gluon.f_q_crossed s

/-- low_level/oneloop/gluon.rs l.116-118. -/
noncomputable def oneloop__gluon__f_q_crossed__complex (s : ℂ) : ℂ :=
  Qcd.gluon.f_q_crossed s

/-- low_level/oneloop/gluon.rs l.121-128. -/
noncomputable def ym__oneloop__gluon__dressing_inv_landau_sep (s : ℝ) (ln_s : ℝ) (ln_s_pl_1 : ℝ) (f0 : ℝ) : ℝ :=
  Qcd.gluon.ym_dressing_inv_landau_sep s ln_s ln_s_pl_1 f0

/-- low_level/oneloop/gluon.rs l.131-138. -/
noncomputable def ym__oneloop__gluon__dressing_inv_landau_sep__complex (s : ℂ) (ln_s : ℂ) (ln_s_pl_1 : ℂ) (f0 : ℝ) : ℂ :=
  Qcd.gluon.ym_dressing_inv_landau_sep s ln_s ln_s_pl_1 f0

/-- low_level/oneloop/gluon.rs l.141-149. -/
noncomputable def ym__oneloop__gluon__dressing_inv_sep (s : ℝ) (ln_s : ℝ) (ln_s_pl_1 : ℝ) (f0 : ℝ) (xi : ℝ) : ℝ :=
  Qcd.gluon.ym_dressing_inv_sep s ln_s ln_s_pl_1 f0 xi

/-- low_level/oneloop/gluon.rs l.152-160. -/
noncomputable def ym__oneloop__gluon__dressing_inv_sep__complex (s : ℂ) (ln_s : ℂ) (ln_s_pl_1 : ℂ) (f0 : ℝ) (xi : ℝ) : ℂ :=
  Qcd.gluon.ym_dressing_inv_sep s ln_s ln_s_pl_1 f0 xi

/-- low_level/oneloop/thermal/ghost.rs l.56-64. -/
noncomputable def oneloop__ghost__self_energy_thermal_part_landau_i (q : ℝ) (om : ℝ) (p : ℝ) (m : ℝ) (beta : ℝ) : ℂ :=
  Qcd.ghost.thermal.self_energy_thermal_part_landau_i q om p m beta

/-- low_level/oneloop/thermal/ghost.rs l.131-138. -/
noncomputable def oneloop__zero_matsubara__ghost__self_energy_thermal_part_landau_i (q : ℝ) (p : ℝ) (m : ℝ) (beta : ℝ) : ℂ :=
  Qcd.ghost.thermal.zero_matsubara.self_energy_thermal_part_landau_i q p m beta

/-- low_level/oneloop/thermal/ghost.rs l.199-206. -/
noncomputable def oneloop__zero_momentum__ghost__self_energy_thermal_part_landau_i (q : ℝ) (om : ℝ) (m : ℝ) (beta : ℝ) : ℂ :=
  Qcd.ghost.thermal.zero_momentum.self_energy_thermal_part_landau_i q om m beta

/-- low_level/oneloop/thermal/gluon.rs l.302-310. -/
noncomputable def oneloop__gluon__polarization_glue_l_thermal_part_landau_i (q : ℝ) (om : ℝ) (p : ℝ) (m : ℝ) (beta : ℝ) : ℂ :=
  Qcd.gluon.thermal.polarization_glue_l_thermal_part_landau_i q om p m beta

/-- low_level/oneloop/thermal/gluon.rs l.313-321. -/
noncomputable def oneloop__gluon__polarization_glue_t_thermal_part_landau_i (q : ℝ) (om : ℝ) (p : ℝ) (m : ℝ) (beta : ℝ) : ℂ :=
  Qcd.gluon.thermal.polarization_glue_t_thermal_part_landau_i q om p m beta

/-- low_level/oneloop/thermal/gluon.rs l.324-333. -/
noncomputable def oneloop__gluon__polarization_quark_l_thermal_part_landau_i (k : Consts ℝ) (q : ℝ) (om : ℝ) (p : ℝ) (mq : ℝ) (beta : ℝ) (mu : ℝ) : ℂ :=
  Qcd.gluon.thermal.polarization_quark_l_thermal_part_landau_i k q om p mq beta mu

/-- low_level/oneloop/thermal/gluon.rs l.336-345. -/
noncomputable def oneloop__gluon__polarization_quark_t_thermal_part_landau_i (k : Consts ℝ) (q : ℝ) (om : ℝ) (p : ℝ) (mq : ℝ) (beta : ℝ) (mu : ℝ) : ℂ :=
  Qcd.gluon.thermal.polarization_quark_t_thermal_part_landau_i k q om p mq beta mu

/-- low_level/oneloop/thermal/gluon.rs l.348-356. -/
noncomputable def oneloop__gluon__polarization_quark_l_thermal_part_zero_temp_landau_i (k : Consts ℝ) (q : ℝ) (om : ℝ) (p : ℝ) (mq : ℝ) (mu : ℝ) : ℂ :=
  Qcd.gluon.thermal.polarization_quark_l_thermal_part_zero_temp_landau_i k q om p mq mu

/-- low_level/oneloop/thermal/gluon.rs l.359-367. -/
noncomputable def oneloop__gluon__polarization_quark_t_thermal_part_zero_temp_landau_i (k : Consts ℝ) (q : ℝ) (om : ℝ) (p : ℝ) (mq : ℝ) (mu : ℝ) : ℂ :=
  Qcd.gluon.thermal.polarization_quark_t_thermal_part_zero_temp_landau_i k q om p mq mu

/-- low_level/oneloop/thermal/gluon.rs l.838-845. -/
noncomputable def oneloop__zero_matsubara__gluon__polarization_glue_l_thermal_part_landau_i (q : ℝ) (om : ℝ) (m : ℝ) (beta : ℝ) : ℂ :=
  Qcd.gluon.thermal.zero_matsubara.polarization_glue_l_thermal_part_landau_i q om m beta

/-- low_level/oneloop/thermal/gluon.rs l.848-855. -/
noncomputable def oneloop__zero_matsubara__gluon__polarization_glue_t_thermal_part_landau_i (q : ℝ) (om : ℝ) (m : ℝ) (beta : ℝ) : ℂ :=
  Qcd.gluon.thermal.zero_matsubara.polarization_glue_t_thermal_part_landau_i q om m beta

/-- low_level/oneloop/thermal/gluon.rs l.858-866. -/
noncomputable def oneloop__zero_matsubara__gluon__polarization_quark_l_thermal_part_landau_i (k : Consts ℝ) (q : ℝ) (p : ℝ) (mq : ℝ) (beta : ℝ) (mu : ℝ) : ℝ :=
  Qcd.gluon.thermal.zero_matsubara.polarization_quark_l_thermal_part_landau_i k q p mq beta mu

/-- low_level/oneloop/thermal/gluon.rs l.869-877. -/
noncomputable def oneloop__zero_matsubara__gluon__polarization_quark_t_thermal_part_landau_i (k : Consts ℝ) (q : ℝ) (p : ℝ) (mq : ℝ) (beta : ℝ) (mu : ℝ) : ℝ :=
  Qcd.gluon.thermal.zero_matsubara.polarization_quark_t_thermal_part_landau_i k q p mq beta mu

/-- low_level/oneloop/thermal/gluon.rs l.880-887. -/
noncomputable def oneloop__zero_matsubara__gluon__polarization_quark_l_thermal_part_zero_temp_landau_i (k : Consts ℝ) (q : ℝ) (p : ℝ) (mq : ℝ) (mu : ℝ) : ℝ :=
  Qcd.gluon.thermal.zero_matsubara.polarization_quark_l_thermal_part_zero_temp_landau_i k q p mq mu

/-- low_level/oneloop/thermal/gluon.rs l.890-897. -/
noncomputable def oneloop__zero_matsubara__gluon__polarization_quark_t_thermal_part_zero_temp_landau_i (k : Consts ℝ) (q : ℝ) (p : ℝ) (mq : ℝ) (mu : ℝ) : ℝ :=
  Qcd.gluon.thermal.zero_matsubara.polarization_quark_t_thermal_part_zero_temp_landau_i k q p mq mu

/-- low_level/oneloop/thermal/gluon.rs l.1265-1272. -/
noncomputable def oneloop__zero_momentum__gluon__polarization_glue_l_thermal_part_landau_i (q : ℝ) (om : ℝ) (m : ℝ) (beta : ℝ) : ℂ :=
  Qcd.gluon.thermal.zero_momentum.polarization_glue_l_thermal_part_landau_i q om m beta

/-- low_level/oneloop/thermal/gluon.rs l.1275-1282. -/
noncomputable def oneloop__zero_momentum__gluon__polarization_glue_t_thermal_part_landau_i (q : ℝ) (om : ℝ) (m : ℝ) (beta : ℝ) : ℂ :=
  Qcd.gluon.thermal.zero_momentum.polarization_glue_t_thermal_part_landau_i q om m beta

/-- low_level/oneloop/thermal/gluon.rs l.1285-1293. -/
noncomputable def oneloop__zero_momentum__gluon__polarization_quark_l_thermal_part_landau_i (k : Consts ℝ) (q : ℝ) (om : ℝ) (mq : ℝ) (beta : ℝ) (mu : ℝ) : ℝ :=
  Qcd.gluon.thermal.zero_momentum.polarization_quark_l_thermal_part_landau_i k q om mq beta mu

/-- low_level/oneloop/thermal/gluon.rs l.1296-1304. -/
noncomputable def oneloop__zero_momentum__gluon__polarization_quark_t_thermal_part_landau_i (k : Consts ℝ) (q : ℝ) (om : ℝ) (mq : ℝ) (beta : ℝ) (mu : ℝ) : ℝ :=
  Qcd.gluon.thermal.zero_momentum.polarization_quark_t_thermal_part_landau_i k q om mq beta mu

/-- low_level/oneloop/thermal/gluon.rs l.1307-1314. -/
noncomputable def oneloop__zero_momentum__gluon__polarization_quark_l_thermal_part_zero_temp_landau_i (k : Consts ℝ) (q : ℝ) (om : ℝ) (mq : ℝ) (mu : ℝ) : ℝ :=
  Qcd.gluon.thermal.zero_momentum.polarization_quark_l_thermal_part_zero_temp_landau_i k q om mq mu

/-- low_level/oneloop/thermal/gluon.rs l.1317-1324. -/
noncomputable def oneloop__zero_momentum__gluon__polarization_quark_t_thermal_part_zero_temp_landau_i (k : Consts ℝ) (q : ℝ) (om : ℝ) (mq : ℝ) (mu : ℝ) : ℝ :=
  Qcd.gluon.thermal.zero_momentum.polarization_quark_t_thermal_part_zero_temp_landau_i k q om mq mu

/-- low_level/oneloop/thermal/mod.rs l.292-294. -/
noncomputable def oneloop__tlog (q : ℝ) (om : ℝ) (p : ℝ) (en : ℝ) (delta : ℝ) : ℂ :=
  Qcd.thermal.tlog q om p en delta

/-- low_level/oneloop/thermal/mod.rs l.297-299. -/
noncomputable def oneloop__tlog_same_mass (q : ℝ) (om : ℝ) (p : ℝ) (en : ℝ) : ℂ :=
  Qcd.thermal.tlog_same_mass q om p en

/-- low_level/oneloop/thermal/mod.rs l.302-304. -/
noncomputable def oneloop__tlog_zero_mass (q : ℝ) (om : ℝ) (p : ℝ) : ℂ :=
  Qcd.thermal.tlog_zero_mass q om p

/-- low_level/oneloop/thermal/mod.rs l.307-309. -/
noncomputable def oneloop__tlog_l (q : ℝ) (om : ℝ) (p : ℝ) (en : ℝ) (delta : ℝ) : ℂ :=
  Qcd.thermal.tlog_l q om p en delta

/-- low_level/oneloop/thermal/mod.rs l.312-314. -/
noncomputable def oneloop__tlog_l_same_mass (q : ℝ) (om : ℝ) (p : ℝ) (en : ℝ) : ℂ :=
  Qcd.thermal.tlog_l_same_mass q om p en

/-- low_level/oneloop/thermal/mod.rs l.317-319. -/
noncomputable def oneloop__tlog_l_zero_mass (q : ℝ) (om : ℝ) (p : ℝ) : ℂ :=
  Qcd.thermal.tlog_l_zero_mass q om p

/-- low_level/oneloop/thermal/mod.rs l.322-324. -/
noncomputable def oneloop__tlog_t (q : ℝ) (om : ℝ) (p : ℝ) (en : ℝ) (delta : ℝ) : ℂ :=
  Qcd.thermal.tlog_t q om p en delta

/-- low_level/oneloop/thermal/mod.rs l.327-329. -/
noncomputable def oneloop__tlog_t_same_mass (q : ℝ) (om : ℝ) (p : ℝ) (en : ℝ) : ℂ :=
  Qcd.thermal.tlog_t_same_mass q om p en

/-- low_level/oneloop/thermal/mod.rs l.332-334. -/
noncomputable def oneloop__tlog_t_zero_mass (q : ℝ) (om : ℝ) (p : ℝ) : ℂ :=
  Qcd.thermal.tlog_t_zero_mass q om p

/-- low_level/oneloop/thermal/mod.rs l.337-339. -/
noncomputable def oneloop__j_m_i (q : ℝ) (m : ℝ) (beta : ℝ) : ℝ :=
  Qcd.thermal.j_m_i q m beta

/-- low_level/oneloop/thermal/mod.rs l.342-344. -/
noncomputable def oneloop__j_0_i (q : ℝ) (beta : ℝ) : ℝ :=
  Qcd.thermal.j_0_i q beta

/-- low_level/oneloop/thermal/mod.rs l.347-349. -/
noncomputable def oneloop__j_m_l_i (q : ℝ) (m : ℝ) (beta : ℝ) : ℝ :=
  Qcd.thermal.j_m_l_i q m beta

/-- low_level/oneloop/thermal/mod.rs l.352-354. -/
noncomputable def oneloop__j_0_l_i (q : ℝ) (beta : ℝ) : ℝ :=
  Qcd.thermal.j_0_l_i q beta

/-- low_level/oneloop/thermal/mod.rs l.357-359. -/
noncomputable def oneloop__j_m_t_i (q : ℝ) (m : ℝ) (beta : ℝ) : ℝ :=
  Qcd.thermal.j_m_t_i q m beta

/-- low_level/oneloop/thermal/mod.rs l.362-364. -/
noncomputable def oneloop__j_0_t_i (q : ℝ) (beta : ℝ) : ℝ :=
  Qcd.thermal.j_0_t_i q beta

/-- low_level/oneloop/thermal/mod.rs l.367-369. -/
noncomputable def oneloop__i_m_m_i (q : ℝ) (om : ℝ) (p : ℝ) (m1 : ℝ) (m2 : ℝ) (beta : ℝ) : ℂ :=
  Qcd.thermal.i_m_m_i q om p m1 m2 beta

/-- low_level/oneloop/thermal/mod.rs l.372-374. -/
noncomputable def oneloop__i_m_m_i_same_mass (q : ℝ) (om : ℝ) (p : ℝ) (m : ℝ) (beta : ℝ) : ℂ :=
  Qcd.thermal.i_m_m_i_same_mass q om p m beta

/-- low_level/oneloop/thermal/mod.rs l.377-379. -/
noncomputable def oneloop__i_m_0_i (q : ℝ) (om : ℝ) (p : ℝ) (m : ℝ) (beta : ℝ) : ℂ :=
  Qcd.thermal.i_m_0_i q om p m beta

/-- low_level/oneloop/thermal/mod.rs l.382-384. -/
noncomputable def oneloop__i_0_0_i (q : ℝ) (om : ℝ) (p : ℝ) (beta : ℝ) : ℂ :=
  Qcd.thermal.i_0_0_i q om p beta

/-- low_level/oneloop/thermal/mod.rs l.387-389. -/
noncomputable def oneloop__i_m_m_l_i (q : ℝ) (om : ℝ) (p : ℝ) (m1 : ℝ) (m2 : ℝ) (beta : ℝ) : ℂ :=
  Qcd.thermal.i_m_m_l_i q om p m1 m2 beta

/-- low_level/oneloop/thermal/mod.rs l.392-394. -/
noncomputable def oneloop__i_m_m_l_i_same_mass (q : ℝ) (om : ℝ) (p : ℝ) (m : ℝ) (beta : ℝ) : ℂ :=
  Qcd.thermal.i_m_m_l_i_same_mass q om p m beta

/-- low_level/oneloop/thermal/mod.rs l.397-399. -/
noncomputable def oneloop__i_m_0_l_i (q : ℝ) (om : ℝ) (p : ℝ) (m : ℝ) (beta : ℝ) : ℂ :=
  Qcd.thermal.i_m_0_l_i q om p m beta

/-- low_level/oneloop/thermal/mod.rs l.402-404. -/
noncomputable def oneloop__i_0_0_l_i (q : ℝ) (om : ℝ) (p : ℝ) (beta : ℝ) : ℂ :=
  Qcd.thermal.i_0_0_l_i q om p beta

/-- low_level/oneloop/thermal/mod.rs l.407-409. -/
noncomputable def oneloop__i_m_m_t_i (q : ℝ) (om : ℝ) (p : ℝ) (m1 : ℝ) (m2 : ℝ) (beta : ℝ) : ℂ :=
  Qcd.thermal.i_m_m_t_i q om p m1 m2 beta

/-- low_level/oneloop/thermal/mod.rs l.412-414. -/
noncomputable def oneloop__i_m_m_t_i_same_mass (q : ℝ) (om : ℝ) (p : ℝ) (m : ℝ) (beta : ℝ) : ℂ :=
  Qcd.thermal.i_m_m_t_i_same_mass q om p m beta

/-- low_level/oneloop/thermal/mod.rs l.417-419. -/
noncomputable def oneloop__i_m_0_t_i (q : ℝ) (om : ℝ) (p : ℝ) (m : ℝ) (beta : ℝ) : ℂ :=
  Qcd.thermal.i_m_0_t_i q om p m beta

/-- low_level/oneloop/thermal/mod.rs l.422-424. -/
noncomputable def oneloop__i_0_0_t_i (q : ℝ) (om : ℝ) (p : ℝ) (beta : ℝ) : ℂ :=
  Qcd.thermal.i_0_0_t_i q om p beta

/-- low_level/oneloop/thermal/mod.rs l.427-429. -/
noncomputable def oneloop__d_j_m_i (q : ℝ) (m : ℝ) (beta : ℝ) : ℝ :=
  Qcd.thermal.d_j_m_i q m beta

/-- low_level/oneloop/thermal/mod.rs l.432-434. -/
noncomputable def oneloop__d_j_0_i (q : ℝ) (beta : ℝ) : ℝ :=
  Qcd.thermal.d_j_0_i q beta

/-- low_level/oneloop/thermal/mod.rs l.437-439. -/
noncomputable def oneloop__d2_j_m_i (q : ℝ) (m : ℝ) (beta : ℝ) : ℝ :=
  Qcd.thermal.d2_j_m_i q m beta

/-- low_level/oneloop/thermal/mod.rs l.442-444. -/
noncomputable def oneloop__d2_j_0_i (q : ℝ) (beta : ℝ) : ℝ :=
  Qcd.thermal.d2_j_0_i q beta

/-- low_level/oneloop/thermal/mod.rs l.447-449. -/
noncomputable def oneloop__d_j_m_l_i (q : ℝ) (m : ℝ) (beta : ℝ) : ℝ :=
  Qcd.thermal.d_j_m_l_i q m beta

/-- low_level/oneloop/thermal/mod.rs l.452-454. -/
noncomputable def oneloop__d_j_0_l_i (q : ℝ) (beta : ℝ) : ℝ :=
  Qcd.thermal.d_j_0_l_i q beta

/-- low_level/oneloop/thermal/mod.rs l.457-459. -/
noncomputable def oneloop__d2_j_m_l_i (q : ℝ) (m : ℝ) (beta : ℝ) : ℝ :=
  Qcd.thermal.d2_j_m_l_i q m beta

/-- low_level/oneloop/thermal/mod.rs l.462-464. -/
noncomputable def oneloop__d2_j_0_l_i (q : ℝ) (beta : ℝ) : ℝ :=
  Qcd.thermal.d2_j_0_l_i q beta

/-- low_level/oneloop/thermal/mod.rs l.467-469. -/
noncomputable def oneloop__d_j_m_t_i (q : ℝ) (m : ℝ) (beta : ℝ) : ℝ :=
  Qcd.thermal.d_j_m_t_i q m beta

/-- low_level/oneloop/thermal/mod.rs l.472-474. -/
noncomputable def oneloop__d_j_0_t_i (q : ℝ) (beta : ℝ) : ℝ :=
  Qcd.thermal.d_j_0_t_i q beta

/-- low_level/oneloop/thermal/mod.rs l.477-479. -/
noncomputable def oneloop__d2_j_m_t_i (q : ℝ) (m : ℝ) (beta : ℝ) : ℝ :=
  Qcd.thermal.d2_j_m_t_i q m beta

/-- low_level/oneloop/thermal/mod.rs l.482-484. -/
noncomputable def oneloop__d2_j_0_t_i (q : ℝ) (beta : ℝ) : ℝ :=
  Qcd.thermal.d2_j_0_t_i q beta

/-- low_level/oneloop/thermal/mod.rs l.487-489. -/
noncomputable def oneloop__d_i_m_m_i (q : ℝ) (om : ℝ) (p : ℝ) (m1 : ℝ) (m2 : ℝ) (beta : ℝ) : ℂ :=
  Qcd.thermal.d_i_m_m_i q om p m1 m2 beta

/-- low_level/oneloop/thermal/mod.rs l.492-494. -/
noncomputable def oneloop__d_i_m_m_i_same_mass (q : ℝ) (om : ℝ) (p : ℝ) (m : ℝ) (beta : ℝ) : ℂ :=
  Qcd.thermal.d_i_m_m_i_same_mass q om p m beta

/-- low_level/oneloop/thermal/mod.rs l.497-499. -/
noncomputable def oneloop__d_i_m_0_i (q : ℝ) (om : ℝ) (p : ℝ) (m : ℝ) (beta : ℝ) : ℂ :=
  Qcd.thermal.d_i_m_0_i q om p m beta

/-- low_level/oneloop/thermal/mod.rs l.502-504. -/
noncomputable def oneloop__d_i_0_0_i (q : ℝ) (om : ℝ) (p : ℝ) (beta : ℝ) : ℂ :=
  Qcd.thermal.d_i_0_0_i q om p beta

/-- low_level/oneloop/thermal/mod.rs l.507-509. -/
noncomputable def oneloop__d_i_m_m_l_i (q : ℝ) (om : ℝ) (p : ℝ) (m1 : ℝ) (m2 : ℝ) (beta : ℝ) : ℂ :=
  Qcd.thermal.d_i_m_m_l_i q om p m1 m2 beta

/-- low_level/oneloop/thermal/mod.rs l.512-514. -/
noncomputable def oneloop__d_i_m_m_l_i_same_mass (q : ℝ) (om : ℝ) (p : ℝ) (m : ℝ) (beta : ℝ) : ℂ :=
  Qcd.thermal.d_i_m_m_l_i_same_mass q om p m beta

/-- low_level/oneloop/thermal/mod.rs l.517-519. -/
noncomputable def oneloop__d_i_m_0_l_i (q : ℝ) (om : ℝ) (p : ℝ) (m : ℝ) (beta : ℝ) : ℂ :=
  Qcd.thermal.d_i_m_0_l_i q om p m beta

/-- low_level/oneloop/thermal/mod.rs l.522-524. -/
noncomputable def oneloop__d_i_0_0_l_i (q : ℝ) (om : ℝ) (p : ℝ) (beta : ℝ) : ℂ :=
  Qcd.thermal.d_i_0_0_l_i q om p beta

/-- low_level/oneloop/thermal/mod.rs l.527-529. -/
noncomputable def oneloop__d_i_m_m_t_i (q : ℝ) (om : ℝ) (p : ℝ) (m1 : ℝ) (m2 : ℝ) (beta : ℝ) : ℂ :=
  Qcd.thermal.d_i_m_m_t_i q om p m1 m2 beta

/-- low_level/oneloop/thermal/mod.rs l.532-534. -/
noncomputable def oneloop__d_i_m_m_t_i_same_mass (q : ℝ) (om : ℝ) (p : ℝ) (m : ℝ) (beta : ℝ) : ℂ :=
  Qcd.thermal.d_i_m_m_t_i_same_mass q om p m beta

/-- low_level/oneloop/thermal/mod.rs l.537-539. -/
noncomputable def oneloop__d_i_m_0_t_i (q : ℝ) (om : ℝ) (p : ℝ) (m : ℝ) (beta : ℝ) : ℂ :=
  Qcd.thermal.d_i_m_0_t_i q om p m beta

/-- low_level/oneloop/thermal/mod.rs l.542-544. -/
noncomputable def oneloop__d_i_0_0_t_i (q : ℝ) (om : ℝ) (p : ℝ) (beta : ℝ) : ℂ :=
  Qcd.thermal.d_i_0_0_t_i q om p beta

/-- low_level/oneloop/thermal/zero_matsubara.rs l.153-155. -/
noncomputable def oneloop__zero_matsubara__tlog (q : ℝ) (p : ℝ) (delta : ℝ) : ℂ :=
  Qcd.thermal.zero_matsubara.tlog q p delta

/-- low_level/oneloop/thermal/zero_matsubara.rs l.158-160. -/
noncomputable def oneloop__zero_matsubara__tlog_same_mass (q : ℝ) (p : ℝ) : ℝ :=
  Qcd.thermal.zero_matsubara.tlog_same_mass q p

/-- low_level/oneloop/thermal/zero_matsubara.rs l.163-165. -/
noncomputable def oneloop__zero_matsubara__tlog_zero_mass (q : ℝ) (p : ℝ) : ℝ :=
  Qcd.thermal.zero_matsubara.tlog_zero_mass q p

/-- low_level/oneloop/thermal/zero_matsubara.rs l.168-170. -/
noncomputable def oneloop__zero_matsubara__tlog_t (q : ℝ) (p : ℝ) (delta : ℝ) : ℂ :=
  Qcd.thermal.zero_matsubara.tlog_t q p delta

/-- low_level/oneloop/thermal/zero_matsubara.rs l.173-175. -/
noncomputable def oneloop__zero_matsubara__tlog_t_same_mass (q : ℝ) (p : ℝ) : ℝ :=
  Qcd.thermal.zero_matsubara.tlog_t_same_mass q p

/-- low_level/oneloop/thermal/zero_matsubara.rs l.178-180. -/
noncomputable def oneloop__zero_matsubara__tlog_t_zero_mass (q : ℝ) (p : ℝ) : ℝ :=
  Qcd.thermal.zero_matsubara.tlog_t_zero_mass q p

/-- low_level/oneloop/thermal/zero_matsubara.rs l.183-185. -/
noncomputable def oneloop__zero_matsubara__i_m_m_i (q : ℝ) (p : ℝ) (m1 : ℝ) (m2 : ℝ) (beta : ℝ) : ℂ :=
  Qcd.thermal.zero_matsubara.i_m_m_i q p m1 m2 beta

/-- low_level/oneloop/thermal/zero_matsubara.rs l.188-190. -/
noncomputable def oneloop__zero_matsubara__i_m_m_i_same_mass (q : ℝ) (p : ℝ) (m : ℝ) (beta : ℝ) : ℝ :=
  Qcd.thermal.zero_matsubara.i_m_m_i_same_mass q p m beta

/-- low_level/oneloop/thermal/zero_matsubara.rs l.193-195. -/
noncomputable def oneloop__zero_matsubara__i_m_0_i (q : ℝ) (p : ℝ) (m : ℝ) (beta : ℝ) : ℂ :=
  Qcd.thermal.zero_matsubara.i_m_0_i q p m beta

/-- low_level/oneloop/thermal/zero_matsubara.rs l.198-200. -/
noncomputable def oneloop__zero_matsubara__i_0_0_i (q : ℝ) (p : ℝ) (beta : ℝ) : ℝ :=
  Qcd.thermal.zero_matsubara.i_0_0_i q p beta

/-- low_level/oneloop/thermal/zero_matsubara.rs l.203-205. -/
noncomputable def oneloop__zero_matsubara__i_m_m_l_i (q : ℝ) (p : ℝ) (m1 : ℝ) (m2 : ℝ) (beta : ℝ) : ℂ :=
  Qcd.thermal.zero_matsubara.i_m_m_l_i q p m1 m2 beta

/-- low_level/oneloop/thermal/zero_matsubara.rs l.208-210. -/
noncomputable def oneloop__zero_matsubara__i_m_m_l_i_same_mass (q : ℝ) (p : ℝ) (m : ℝ) (beta : ℝ) : ℝ :=
  Qcd.thermal.zero_matsubara.i_m_m_l_i_same_mass q p m beta

/-- low_level/oneloop/thermal/zero_matsubara.rs l.213-215. -/
noncomputable def oneloop__zero_matsubara__i_m_0_l_i (q : ℝ) (p : ℝ) (m : ℝ) (beta : ℝ) : ℂ :=
  Qcd.thermal.zero_matsubara.i_m_0_l_i q p m beta

/-- low_level/oneloop/thermal/zero_matsubara.rs l.218-220. -/
noncomputable def oneloop__zero_matsubara__i_0_0_l_i (q : ℝ) (p : ℝ) (beta : ℝ) : ℝ :=
  Qcd.thermal.zero_matsubara.i_0_0_l_i q p beta

/-- low_level/oneloop/thermal/zero_matsubara.rs l.223-225. -/
noncomputable def oneloop__zero_matsubara__i_m_m_t_i (q : ℝ) (p : ℝ) (m1 : ℝ) (m2 : ℝ) (beta : ℝ) : ℂ :=
  Qcd.thermal.zero_matsubara.i_m_m_t_i q p m1 m2 beta

/-- low_level/oneloop/thermal/zero_matsubara.rs l.228-230. -/
noncomputable def oneloop__zero_matsubara__i_m_m_t_i_same_mass (q : ℝ) (p : ℝ) (m : ℝ) (beta : ℝ) : ℝ :=
  Qcd.thermal.zero_matsubara.i_m_m_t_i_same_mass q p m beta

/-- low_level/oneloop/thermal/zero_matsubara.rs l.233-235. -/
noncomputable def oneloop__zero_matsubara__i_m_0_t_i (q : ℝ) (p : ℝ) (m : ℝ) (beta : ℝ) : ℂ :=
  Qcd.thermal.zero_matsubara.i_m_0_t_i q p m beta

/-- low_level/oneloop/thermal/zero_matsubara.rs l.238-240. -/
noncomputable def oneloop__zero_matsubara__i_0_0_t_i (q : ℝ) (p : ℝ) (beta : ℝ) : ℝ :=
  Qcd.thermal.zero_matsubara.i_0_0_t_i q p beta

/-- low_level/oneloop/thermal/zero_matsubara.rs l.243-245. -/
noncomputable def oneloop__zero_matsubara__d_i_m_m_i (q : ℝ) (p : ℝ) (m1 : ℝ) (m2 : ℝ) (beta : ℝ) : ℂ :=
  Qcd.thermal.zero_matsubara.d_i_m_m_i q p m1 m2 beta

/-- low_level/oneloop/thermal/zero_matsubara.rs l.248-250. -/
noncomputable def oneloop__zero_matsubara__d_i_m_m_i_same_mass (q : ℝ) (p : ℝ) (m : ℝ) (beta : ℝ) : ℝ :=
  Qcd.thermal.zero_matsubara.d_i_m_m_i_same_mass q p m beta

/-- low_level/oneloop/thermal/zero_matsubara.rs l.253-255. -/
noncomputable def oneloop__zero_matsubara__d_i_m_0_i (q : ℝ) (p : ℝ) (m : ℝ) (beta : ℝ) : ℝ :=
  Qcd.thermal.zero_matsubara.d_i_m_0_i q p m beta

/-- low_level/oneloop/thermal/zero_matsubara.rs l.258-260. -/
noncomputable def oneloop__zero_matsubara__d_i_0_0_i (q : ℝ) (p : ℝ) (beta : ℝ) : ℝ :=
  Qcd.thermal.zero_matsubara.d_i_0_0_i q p beta

/-- low_level/oneloop/thermal/zero_matsubara.rs l.263-265. -/
noncomputable def oneloop__zero_matsubara__d_i_m_m_l_i (q : ℝ) (p : ℝ) (m1 : ℝ) (m2 : ℝ) (beta : ℝ) : ℂ :=
  Qcd.thermal.zero_matsubara.d_i_m_m_l_i q p m1 m2 beta

/-- low_level/oneloop/thermal/zero_matsubara.rs l.268-275. -/
noncomputable def oneloop__zero_matsubara__d_i_m_m_l_i_same_mass (q : ℝ) (p : ℝ) (m : ℝ) (beta : ℝ) : ℝ :=
  Qcd.thermal.zero_matsubara.d_i_m_m_l_i_same_mass q p m beta

/-- low_level/oneloop/thermal/zero_matsubara.rs l.278-280. -/
noncomputable def oneloop__zero_matsubara__d_i_m_0_l_i (q : ℝ) (p : ℝ) (m : ℝ) (beta : ℝ) : ℝ :=
  Qcd.thermal.zero_matsubara.d_i_m_0_l_i q p m beta

/-- low_level/oneloop/thermal/zero_matsubara.rs l.283-285. -/
noncomputable def oneloop__zero_matsubara__d_i_0_0_l_i (q : ℝ) (p : ℝ) (beta : ℝ) : ℝ :=
  Qcd.thermal.zero_matsubara.d_i_0_0_l_i q p beta

/-- low_level/oneloop/thermal/zero_matsubara.rs l.288-290. -/
noncomputable def oneloop__zero_matsubara__d_i_m_m_t_i (q : ℝ) (p : ℝ) (m1 : ℝ) (m2 : ℝ) (beta : ℝ) : ℂ :=
  Qcd.thermal.zero_matsubara.d_i_m_m_t_i q p m1 m2 beta

/-- low_level/oneloop/thermal/zero_matsubara.rs l.293-300. -/
noncomputable def oneloop__zero_matsubara__d_i_m_m_t_i_same_mass (q : ℝ) (p : ℝ) (m : ℝ) (beta : ℝ) : ℝ :=
  Qcd.thermal.zero_matsubara.d_i_m_m_t_i_same_mass q p m beta

/-- low_level/oneloop/thermal/zero_matsubara.rs l.303-305. -/
noncomputable def oneloop__zero_matsubara__d_i_m_0_t_i (q : ℝ) (p : ℝ) (m : ℝ) (beta : ℝ) : ℂ :=
  Qcd.thermal.zero_matsubara.d_i_m_0_t_i q p m beta

/-- low_level/oneloop/thermal/zero_matsubara.rs l.308-310. -/
noncomputable def oneloop__zero_matsubara__d_i_0_0_t_i (q : ℝ) (p : ℝ) (beta : ℝ) : ℝ :=
  Qcd.thermal.zero_matsubara.d_i_0_0_t_i q p beta

/-- low_level/oneloop/thermal/zero_momentum.rs l.125-127. -/
noncomputable def oneloop__zero_momentum__i_m_m_i (q : ℝ) (om : ℝ) (m1 : ℝ) (m2 : ℝ) (beta : ℝ) : ℂ :=
  Qcd.thermal.zero_momentum.i_m_m_i q om m1 m2 beta

/-- low_level/oneloop/thermal/zero_momentum.rs l.130-132. -/
noncomputable def oneloop__zero_momentum__i_m_m_i_same_mass (q : ℝ) (om : ℝ) (m : ℝ) (beta : ℝ) : ℂ :=
  Qcd.thermal.zero_momentum.i_m_m_i_same_mass q om m beta

/-- low_level/oneloop/thermal/zero_momentum.rs l.135-137. -/
noncomputable def oneloop__zero_momentum__i_m_0_i (q : ℝ) (om : ℝ) (m : ℝ) (beta : ℝ) : ℂ :=
  Qcd.thermal.zero_momentum.i_m_0_i q om m beta

/-- low_level/oneloop/thermal/zero_momentum.rs l.140-142. -/
noncomputable def oneloop__zero_momentum__i_0_0_i (q : ℝ) (om : ℝ) (beta : ℝ) : ℂ :=
  Qcd.thermal.zero_momentum.i_0_0_i q om beta

/-- low_level/oneloop/thermal/zero_momentum.rs l.145-147. -/
noncomputable def oneloop__zero_momentum__i_m_m_l_i (q : ℝ) (om : ℝ) (m1 : ℝ) (m2 : ℝ) (beta : ℝ) : ℂ :=
  Qcd.thermal.zero_momentum.i_m_m_l_i q om m1 m2 beta

/-- low_level/oneloop/thermal/zero_momentum.rs l.150-152. -/
noncomputable def oneloop__zero_momentum__i_m_m_l_i_same_mass (q : ℝ) (om : ℝ) (m : ℝ) (beta : ℝ) : ℂ :=
  Qcd.thermal.zero_momentum.i_m_m_l_i_same_mass q om m beta

/-- low_level/oneloop/thermal/zero_momentum.rs l.155-157. -/
noncomputable def oneloop__zero_momentum__i_m_0_l_i (q : ℝ) (om : ℝ) (m : ℝ) (beta : ℝ) : ℂ :=
  Qcd.thermal.zero_momentum.i_m_0_l_i q om m beta

/-- low_level/oneloop/thermal/zero_momentum.rs l.160-162. -/
noncomputable def oneloop__zero_momentum__i_0_0_l_i (q : ℝ) (om : ℝ) (beta : ℝ) : ℂ :=
  Qcd.thermal.zero_momentum.i_0_0_l_i q om beta

/-- low_level/oneloop/thermal/zero_momentum.rs l.165-167. -/
noncomputable def oneloop__zero_momentum__i_m_m_t_i (q : ℝ) (om : ℝ) (m1 : ℝ) (m2 : ℝ) (beta : ℝ) : ℂ :=
  Qcd.thermal.zero_momentum.i_m_m_t_i q om m1 m2 beta

/-- low_level/oneloop/thermal/zero_momentum.rs l.170-172. -/
noncomputable def oneloop__zero_momentum__i_m_m_t_i_same_mass (q : ℝ) (om : ℝ) (m : ℝ) (beta : ℝ) : ℂ :=
  Qcd.thermal.zero_momentum.i_m_m_t_i_same_mass q om m beta

/-- low_level/oneloop/thermal/zero_momentum.rs l.175-177. -/
noncomputable def oneloop__zero_momentum__i_m_0_t_i (q : ℝ) (om : ℝ) (m : ℝ) (beta : ℝ) : ℂ :=
  Qcd.thermal.zero_momentum.i_m_0_t_i q om m beta

/-- low_level/oneloop/thermal/zero_momentum.rs l.180-182. -/
noncomputable def oneloop__zero_momentum__i_0_0_t_i (q : ℝ) (om : ℝ) (beta : ℝ) : ℂ :=
  Qcd.thermal.zero_momentum.i_0_0_t_i q om beta

/-- low_level/oneloop/thermal/zero_momentum.rs l.185-187. -/
noncomputable def oneloop__zero_momentum__d_i_m_m_i (q : ℝ) (om : ℝ) (m1 : ℝ) (m2 : ℝ) (beta : ℝ) : ℂ :=
  Qcd.thermal.zero_momentum.d_i_m_m_i q om m1 m2 beta

/-- low_level/oneloop/thermal/zero_momentum.rs l.190-192. -/
noncomputable def oneloop__zero_momentum__d_i_m_m_i_same_mass (q : ℝ) (om : ℝ) (m : ℝ) (beta : ℝ) : ℂ :=
  Qcd.thermal.zero_momentum.d_i_m_m_i_same_mass q om m beta

/-- low_level/oneloop/thermal/zero_momentum.rs l.195-197. -/
noncomputable def oneloop__zero_momentum__d_i_m_0_i (q : ℝ) (om : ℝ) (m : ℝ) (beta : ℝ) : ℂ :=
  Qcd.thermal.zero_momentum.d_i_m_0_i q om m beta

/-- low_level/oneloop/thermal/zero_momentum.rs l.200-202. -/
noncomputable def oneloop__zero_momentum__d_i_0_0_i (q : ℝ) (om : ℝ) (beta : ℝ) : ℂ :=
  Qcd.thermal.zero_momentum.d_i_0_0_i q om beta

/-- low_level/oneloop/thermal/zero_momentum.rs l.205-207. -/
noncomputable def oneloop__zero_momentum__d_i_m_m_l_i (q : ℝ) (om : ℝ) (m1 : ℝ) (m2 : ℝ) (beta : ℝ) : ℂ :=
  Qcd.thermal.zero_momentum.d_i_m_m_l_i q om m1 m2 beta

/-- low_level/oneloop/thermal/zero_momentum.rs l.210-217. -/
noncomputable def oneloop__zero_momentum__d_i_m_m_l_i_same_mass (q : ℝ) (om : ℝ) (m : ℝ) (beta : ℝ) : ℂ :=
  Qcd.thermal.zero_momentum.d_i_m_m_l_i_same_mass q om m beta

/-- low_level/oneloop/thermal/zero_momentum.rs l.220-222. -/
noncomputable def oneloop__zero_momentum__d_i_m_0_l_i (q : ℝ) (om : ℝ) (m : ℝ) (beta : ℝ) : ℂ :=
  Qcd.thermal.zero_momentum.d_i_m_0_l_i q om m beta

/-- low_level/oneloop/thermal/zero_momentum.rs l.225-227. -/
noncomputable def oneloop__zero_momentum__d_i_0_0_l_i (q : ℝ) (om : ℝ) (beta : ℝ) : ℂ :=
  Qcd.thermal.zero_momentum.d_i_0_0_l_i q om beta

/-- low_level/oneloop/thermal/zero_momentum.rs l.230-232. -/
noncomputable def oneloop__zero_momentum__d_i_m_m_t_i (q : ℝ) (om : ℝ) (m1 : ℝ) (m2 : ℝ) (beta : ℝ) : ℂ :=
  Qcd.thermal.zero_momentum.d_i_m_m_t_i q om m1 m2 beta

/-- low_level/oneloop/thermal/zero_momentum.rs l.235-242. -/
noncomputable def oneloop__zero_momentum__d_i_m_m_t_i_same_mass (q : ℝ) (om : ℝ) (m : ℝ) (beta : ℝ) : ℂ :=
  Qcd.thermal.zero_momentum.d_i_m_m_t_i_same_mass q om m beta

/-- low_level/oneloop/thermal/zero_momentum.rs l.245-247. -/
noncomputable def oneloop__zero_momentum__d_i_m_0_t_i (q : ℝ) (om : ℝ) (m : ℝ) (beta : ℝ) : ℂ :=
  Qcd.thermal.zero_momentum.d_i_m_0_t_i q om m beta

/-- low_level/oneloop/thermal/zero_momentum.rs l.250-252. -/
noncomputable def oneloop__zero_momentum__d_i_0_0_t_i (q : ℝ) (om : ℝ) (beta : ℝ) : ℂ :=
  Qcd.thermal.zero_momentum.d_i_0_0_t_i q om beta

/-- qcd/ghost.rs l.25-27. -/
noncomputable def qcd__ghost__dressing_inv_landau (s : ℝ) (g0 : ℝ) : ℝ :=
  Qcd.ghost.dressing_inv_landau s g0

/-- qcd/ghost.rs l.30-32. -/
noncomputable def qcd__ghost__dressing_inv_landau__complex (s : ℂ) (g0 : ℝ) : ℂ :=
  Qcd.ghost.dressing_inv_landau s g0

/-- qcd/ghost.rs l.35-37. -/
noncomputable def qcd__ghost__dressing_inv (s : ℝ) (g0 : ℝ) (xi : ℝ) : ℝ :=
  Qcd.ghost.dressing_inv s g0 xi

/-- qcd/ghost.rs l.40-42. -/
noncomputable def qcd__ghost__dressing_inv__complex (s : ℂ) (g0 : ℝ) (xi : ℝ) : ℂ :=
  Qcd.ghost.dressing_inv s g0 xi

/-- qcd/ghost.rs l.45-47. -/
noncomputable def qcd__ghost__dressing_landau (s : ℝ) (g0 : ℝ) : ℝ :=
  Qcd.ghost.dressing_landau s g0

/-- qcd/ghost.rs l.50-52. -/
noncomputable def qcd__ghost__dressing_landau__complex (s : ℂ) (g0 : ℝ) : ℂ :=
  Qcd.ghost.dressing_landau s g0

/-- qcd/ghost.rs l.55-57. -/
noncomputable def qcd__ghost__dressing (s : ℝ) (g0 : ℝ) (xi : ℝ) : ℝ :=
  Qcd.ghost.dressing s g0 xi

/-- qcd/ghost.rs l.60-62. -/
noncomputable def qcd__ghost__dressing__complex (s : ℂ) (g0 : ℝ) (xi : ℝ) : ℂ :=
  Qcd.ghost.dressing s g0 xi

/-- qcd/gluon.rs l.144-146. -/
noncomputable def qcd__gluon__dressing_inv_landau (k : Consts ℝ) (s : ℝ) (mq : ℝ) (f0 : ℝ) : ℝ :=
  Qcd.qcd.gluon.dressing_inv_landau k s mq f0

/-- qcd/gluon.rs l.149-151. -/
noncomputable def qcd__gluon__dressing_inv_landau__complex (k : Consts ℝ) (s : ℂ) (mq : ℝ) (f0 : ℝ) : ℂ :=
  Qcd.qcd.gluon.dressing_inv_landau k s mq f0

/-- qcd/gluon.rs l.154-156. -/
noncomputable def qcd__gluon__dressing_inv (k : Consts ℝ) (s : ℝ) (mq : ℝ) (f0 : ℝ) (xi : ℝ) : ℝ :=
  Qcd.qcd.gluon.dressing_inv k s mq f0 xi

/-- qcd/gluon.rs l.159-161. -/
noncomputable def qcd__gluon__dressing_inv__complex (k : Consts ℝ) (s : ℂ) (mq : ℝ) (f0 : ℝ) (xi : ℝ) : ℂ :=
  Qcd.qcd.gluon.dressing_inv k s mq f0 xi

/-- qcd/gluon.rs l.164-166. -/
noncomputable def qcd__gluon__dressing_landau (k : Consts ℝ) (s : ℝ) (mq : ℝ) (f0 : ℝ) : ℝ :=
  Qcd.qcd.gluon.dressing_landau k s mq f0

/-- qcd/gluon.rs l.168-170. -/
noncomputable def qcd__gluon__dressing_landau__complex (k : Consts ℝ) (s : ℂ) (mq : ℝ) (f0 : ℝ) : ℂ :=
  Qcd.qcd.gluon.dressing_landau k s mq f0

/-- qcd/gluon.rs l.173-175. -/
noncomputable def qcd__gluon__dressing (k : Consts ℝ) (s : ℝ) (mq : ℝ) (f0 : ℝ) (xi : ℝ) : ℝ :=
  Qcd.qcd.gluon.dressing k s mq f0 xi

/-- qcd/gluon.rs l.178-180. -/
noncomputable def qcd__gluon__dressing__complex (k : Consts ℝ) (s : ℂ) (mq : ℝ) (f0 : ℝ) (xi : ℝ) : ℂ :=
  Qcd.qcd.gluon.dressing k s mq f0 xi

/-- qcd/gluon.rs l.183-185. -/
noncomputable def qcd__gluon__propagator_landau (k : Consts ℝ) (s : ℝ) (mq : ℝ) (f0 : ℝ) : ℝ :=
  Qcd.qcd.gluon.propagator_landau k s mq f0

/-- qcd/gluon.rs l.187-189. -/
noncomputable def qcd__gluon__propagator_landau__complex (k : Consts ℝ) (s : ℂ) (mq : ℝ) (f0 : ℝ) : ℂ :=
  Qcd.qcd.gluon.propagator_landau k s mq f0

/-- qcd/gluon.rs l.192-194. -/
noncomputable def qcd__gluon__propagator (k : Consts ℝ) (s : ℝ) (mq : ℝ) (f0 : ℝ) (xi : ℝ) : ℝ :=
  Qcd.qcd.gluon.propagator k s mq f0 xi

/-- qcd/gluon.rs l.197-199. -/
noncomputable def qcd__gluon__propagator__complex (k : Consts ℝ) (s : ℂ) (mq : ℝ) (f0 : ℝ) (xi : ℝ) : ℂ :=
  Qcd.qcd.gluon.propagator k s mq f0 xi

/-- qcd/gluon.rs l.202-204. -/
noncomputable def qcd__gluon__dressing_crossed_inv_landau (k : Consts ℝ) (s : ℝ) (mq : ℝ) (f0 : ℝ) : ℝ :=
  Qcd.qcd.gluon.dressing_crossed_inv_landau k s mq f0

/-- qcd/gluon.rs l.207-209. -/
noncomputable def qcd__gluon__dressing_crossed_inv_landau__complex (k : Consts ℝ) (s : ℂ) (mq : ℝ) (f0 : ℝ) : ℂ :=
  Qcd.qcd.gluon.dressing_crossed_inv_landau k s mq f0

/-- qcd/gluon.rs l.212-214. -/
noncomputable def qcd__gluon__dressing_crossed_inv (k : Consts ℝ) (s : ℝ) (mq : ℝ) (f0 : ℝ) (xi : ℝ) : ℝ :=
  Qcd.qcd.gluon.dressing_crossed_inv k s mq f0 xi

/-- qcd/gluon.rs l.217-219. -/
noncomputable def qcd__gluon__dressing_crossed_inv__complex (k : Consts ℝ) (s : ℂ) (mq : ℝ) (f0 : ℝ) (xi : ℝ) : ℂ :=
  Qcd.qcd.gluon.dressing_crossed_inv k s mq f0 xi

/-- qcd/gluon.rs l.222-224. -/
noncomputable def qcd__gluon__dressing_crossed_landau (k : Consts ℝ) (s : ℝ) (mq : ℝ) (f0 : ℝ) : ℝ :=
  Qcd.qcd.gluon.dressing_crossed_landau k s mq f0

/-- qcd/gluon.rs l.227-229. -/
noncomputable def qcd__gluon__dressing_crossed_landau__complex (k : Consts ℝ) (s : ℂ) (mq : ℝ) (f0 : ℝ) : ℂ :=
  Qcd.qcd.gluon.dressing_crossed_landau k s mq f0

/-- qcd/gluon.rs l.232-234. -/
noncomputable def qcd__gluon__dressing_crossed (k : Consts ℝ) (s : ℝ) (mq : ℝ) (f0 : ℝ) (xi : ℝ) : ℝ :=
  Qcd.qcd.gluon.dressing_crossed k s mq f0 xi

/-- qcd/gluon.rs l.237-239. -/
noncomputable def qcd__gluon__dressing_crossed__complex (k : Consts ℝ) (s : ℂ) (mq : ℝ) (f0 : ℝ) (xi : ℝ) : ℂ :=
  Qcd.qcd.gluon.dressing_crossed k s mq f0 xi

/-- qcd/gluon.rs l.242-244. -/
noncomputable def qcd__gluon__propagator_crossed_landau (k : Consts ℝ) (s : ℝ) (mq : ℝ) (f0 : ℝ) : ℝ :=
  Qcd.qcd.gluon.propagator_crossed_landau k s mq f0

/-- qcd/gluon.rs l.247-249. -/
noncomputable def qcd__gluon__propagator_crossed_landau__complex (k : Consts ℝ) (s : ℂ) (mq : ℝ) (f0 : ℝ) : ℂ :=
  Qcd.qcd.gluon.propagator_crossed_landau k s mq f0

/-- qcd/gluon.rs l.252-254. -/
noncomputable def qcd__gluon__propagator_crossed (k : Consts ℝ) (s : ℝ) (mq : ℝ) (f0 : ℝ) (xi : ℝ) : ℝ :=
  Qcd.qcd.gluon.propagator_crossed k s mq f0 xi

/-- qcd/gluon.rs l.257-259. -/
noncomputable def qcd__gluon__propagator_crossed__complex (k : Consts ℝ) (s : ℂ) (mq : ℝ) (f0 : ℝ) (xi : ℝ) : ℂ :=
  Qcd.qcd.gluon.propagator_crossed k s mq f0 xi

/-- ym/ghost.rs l.55-57. -/
noncomputable def ym__ghost__dressing_inv_landau (s : ℝ) (g0 : ℝ) : ℝ :=
  Qcd.ghost.dressing_inv_landau s g0

/-- ym/ghost.rs l.60-62. -/
noncomputable def ym__ghost__dressing_inv_landau__complex (s : ℂ) (g0 : ℝ) : ℂ :=
  Qcd.ghost.dressing_inv_landau s g0

/-- ym/ghost.rs l.65-67. -/
noncomputable def ym__ghost__dressing_inv (s : ℝ) (g0 : ℝ) (xi : ℝ) : ℝ :=
  Qcd.ghost.dressing_inv s g0 xi

/-- ym/ghost.rs l.70-72. -/
noncomputable def ym__ghost__dressing_inv__complex (s : ℂ) (g0 : ℝ) (xi : ℝ) : ℂ :=
  Qcd.ghost.dressing_inv s g0 xi

/-- ym/ghost.rs l.75-77. -/
noncomputable def ym__ghost__dressing_landau (s : ℝ) (g0 : ℝ) : ℝ :=
  Qcd.ghost.dressing_landau s g0

/-- ym/ghost.rs l.80-82. -/
noncomputable def ym__ghost__dressing_landau__complex (s : ℂ) (g0 : ℝ) : ℂ :=
  Qcd.ghost.dressing_landau s g0

/-- ym/ghost.rs l.85-87. -/
noncomputable def ym__ghost__dressing (s : ℝ) (g0 : ℝ) (xi : ℝ) : ℝ :=
  Qcd.ghost.dressing s g0 xi

/-- ym/ghost.rs l.90-92. -/
noncomputable def ym__ghost__dressing__complex (s : ℂ) (g0 : ℝ) (xi : ℝ) : ℂ :=
  Qcd.ghost.dressing s g0 xi

/-- ym/ghost.rs l.95-97. -/
noncomputable def ym__ghost__propagator_landau (s : ℝ) (g0 : ℝ) : ℝ :=
  Qcd.ghost.propagator_landau s g0

/-- ym/ghost.rs l.100-102. -/
noncomputable def ym__ghost__propagator_landau__complex (s : ℂ) (g0 : ℝ) : ℂ :=
  Qcd.ghost.propagator_landau s g0

/-- ym/ghost.rs l.105-107. -/
noncomputable def ym__ghost__propagator (s : ℝ) (g0 : ℝ) (xi : ℝ) : ℝ :=
  Qcd.ghost.propagator s g0 xi

/-- ym/ghost.rs l.110-112. -/
noncomputable def ym__ghost__propagator__complex (s : ℂ) (g0 : ℝ) (xi : ℝ) : ℂ :=
  Qcd.ghost.propagator s g0 xi

/-- ym/gluon.rs l.54-56. -/
noncomputable def ym__gluon__dressing_inv_landau (s : ℝ) (f0 : ℝ) : ℝ :=
  Qcd.ym.gluon.dressing_inv_landau s f0

/-- ym/gluon.rs l.59-61. -/
noncomputable def ym__gluon__dressing_inv_landau__complex (s : ℂ) (f0 : ℝ) : ℂ :=
  Qcd.ym.gluon.dressing_inv_landau s f0

/-- ym/gluon.rs l.64-66. -/
noncomputable def ym__gluon__dressing_inv (s : ℝ) (f0 : ℝ) (xi : ℝ) : ℝ :=
  Qcd.ym.gluon.dressing_inv s f0 xi

/-- ym/gluon.rs l.69-71. -/
noncomputable def ym__gluon__dressing_inv__complex (s : ℂ) (f0 : ℝ) (xi : ℝ) : ℂ :=
  Qcd.ym.gluon.dressing_inv s f0 xi

/-- ym/gluon.rs l.74-76. -/
noncomputable def ym__gluon__dressing_landau (s : ℝ) (f0 : ℝ) : ℝ :=
  Qcd.ym.gluon.dressing_landau s f0

/-- ym/gluon.rs l.79-81. -/
noncomputable def ym__gluon__dressing_landau__complex (s : ℂ) (f0 : ℝ) : ℂ :=
  Qcd.ym.gluon.dressing_landau s f0

/-- ym/gluon.rs l.84-86. -/
noncomputable def ym__gluon__dressing (s : ℝ) (f0 : ℝ) (xi : ℝ) : ℝ :=
  Qcd.ym.gluon.dressing s f0 xi

/-- ym/gluon.rs l.89-91. -/
noncomputable def ym__gluon__dressing__complex (s : ℂ) (f0 : ℝ) (xi : ℝ) : ℂ :=
  Qcd.ym.gluon.dressing s f0 xi

/-- ym/gluon.rs l.94-96. -/
noncomputable def ym__gluon__propagator_landau (s : ℝ) (f0 : ℝ) : ℝ :=
  Qcd.ym.gluon.propagator_landau s f0

/-- ym/gluon.rs l.99-101. -/
noncomputable def ym__gluon__propagator_landau__complex (s : ℂ) (f0 : ℝ) : ℂ :=
  Qcd.ym.gluon.propagator_landau s f0

/-- ym/gluon.rs l.104-106. -/
noncomputable def ym__gluon__propagator (s : ℝ) (f0 : ℝ) (xi : ℝ) : ℝ :=
  Qcd.ym.gluon.propagator s f0 xi

/-- ym/gluon.rs l.109-111. -/
noncomputable def ym__gluon__propagator__complex (s : ℂ) (f0 : ℝ) (xi : ℝ) : ℂ :=
  Qcd.ym.gluon.propagator s f0 xi

end ffi

/-- All exported functions but the setters; the getters are in consts.rs l.23, l.48, l.82, l.106, l.135, l.166. -/
noncomputable def exports : List Export := [
  ⟨"get_number_of_colors", [], .n, Consts.nc⟩,
  ⟨"get_number_of_fermions", [], .n, Consts.nf⟩,
  ⟨"get_default_quark_mass", [], .r, Consts.m_quark⟩,
  ⟨"get_default_tol_integral", [], .r, Consts.tol_integral⟩,
  ⟨"get_default_max_iter_integral", [], .n, Consts.max_iter_integral⟩,
  ⟨"get_matsubara_reg", [], .r, Consts.matsubara_reg⟩,
  ⟨"energy_squared", [.r, .r], .r, fun _ => ffi.energy_squared⟩,
  ⟨"energy", [.r, .r], .r, fun _ => ffi.energy⟩,
  ⟨"fermi_momentum", [.r, .r], .r, fun _ => ffi.fermi_momentum⟩,
  ⟨"fermi_distribution", [.r, .r, .r], .r, fun _ => ffi.fermi_distribution⟩,
  ⟨"fermi_distribution_zero_temp", [.r, .r], .r, fun _ => ffi.fermi_distribution_zero_temp⟩,
  ⟨"fermi_distribution_double", [.r, .r, .r], .r, fun _ => ffi.fermi_distribution_double⟩,
  ⟨"fermi_distribution_double_zero_temp", [.r, .r], .r, fun _ => ffi.fermi_distribution_double_zero_temp⟩,
  ⟨"fermi_distribution_zero_chempot", [.r, .r], .r, fun _ => ffi.fermi_distribution_zero_chempot⟩,
  ⟨"bose_distribution", [.r, .r, .r], .r, fun _ => ffi.bose_distribution⟩,
  ⟨"bose_distribution_zero_chempot", [.r, .r], .r, fun _ => ffi.bose_distribution_zero_chempot⟩,
  ⟨"statistic_distribution_exponential", [.r, .r, .r], .r, fun _ => ffi.statistic_distribution_exponential⟩,
  ⟨"statistic_distribution_exponential_zero_chempot", [.r, .r], .r, fun _ => ffi.statistic_distribution_exponential_zero_chempot⟩,
  ⟨"oneloop__ghost__g_sep", [.r, .r, .r], .r, fun _ => ffi.oneloop__ghost__g_sep⟩,
  ⟨"oneloop__ghost__g", [.r], .r, fun _ => ffi.oneloop__ghost__g⟩,
  ⟨"oneloop__ghost__g_sep__complex", [.c, .c, .c], .c, fun _ => ffi.oneloop__ghost__g_sep__complex⟩,
  ⟨"oneloop__ghost__g__complex", [.c], .c, fun _ => ffi.oneloop__ghost__g__complex⟩,
  ⟨"oneloop__ghost__g_xi_sep", [.r], .r, fun _ => ffi.oneloop__ghost__g_xi_sep⟩,
  ⟨"oneloop__ghost__g_xi", [.r], .r, fun _ => ffi.oneloop__ghost__g_xi⟩,
  ⟨"oneloop__ghost__g_xi_sep__complex", [.c], .c, fun _ => ffi.oneloop__ghost__g_xi_sep__complex⟩,
  ⟨"oneloop__ghost__g_xi__complex", [.c], .c, fun _ => ffi.oneloop__ghost__g_xi__complex⟩,
  ⟨"ym__oneloop__ghost__dressing_inv_landau_sep", [.r, .r, .r, .r], .r, fun _ => ffi.ym__oneloop__ghost__dressing_inv_landau_sep⟩,
  ⟨"ym__oneloop__ghost__dressing_inv_landau_sep__complex", [.c, .c, .c, .r], .c, fun _ => ffi.ym__oneloop__ghost__dressing_inv_landau_sep__complex⟩,
  ⟨"ym__oneloop__ghost__dressing_inv_sep", [.r, .r, .r, .r, .r], .r, fun _ => ffi.ym__oneloop__ghost__dressing_inv_sep⟩,
  ⟨"ym__oneloop__ghost__dressing_inv_sep__complex", [.c, .c, .c, .r, .r], .c, fun _ => ffi.ym__oneloop__ghost__dressing_inv_sep__complex⟩,
  ⟨"oneloop__gluon__f_sep", [.r, .r, .r], .r, fun _ => ffi.oneloop__gluon__f_sep⟩,
  ⟨"oneloop__gluon__f", [.r], .r, fun _ => ffi.oneloop__gluon__f⟩,
  ⟨"oneloop__gluon__f_sep__complex", [.c, .c, .c], .c, fun _ => ffi.oneloop__gluon__f_sep__complex⟩,
  ⟨"oneloop__gluon__f__complex", [.c], .c, fun _ => ffi.oneloop__gluon__f__complex⟩,
  ⟨"oneloop__gluon__f_xi_sep", [.r, .r, .r], .r, fun _ => ffi.oneloop__gluon__f_xi_sep⟩,
  ⟨"oneloop__gluon__f_xi", [.r], .r, fun _ => ffi.oneloop__gluon__f_xi⟩,
  ⟨"oneloop__gluon__f_xi_sep__complex", [.c, .c, .c], .c, fun _ => ffi.oneloop__gluon__f_xi_sep__complex⟩,
  ⟨"oneloop__gluon__f_xi__complex", [.c], .c, fun _ => ffi.oneloop__gluon__f_xi__complex⟩,
  ⟨"oneloop__gluon__f_q", [.r], .r, fun _ => ffi.oneloop__gluon__f_q⟩,
  ⟨"oneloop__gluon__f_q__complex", [.c], .c, fun _ => ffi.oneloop__gluon__f_q__complex⟩,
  ⟨"oneloop__gluon__f_q_crossed", [.r], .r, fun _ => ffi.oneloop__gluon__f_q_crossed⟩,
  ⟨"oneloop__gluon__f_q_crossed__complex", [.c], .c, fun _ => ffi.oneloop__gluon__f_q_crossed__complex⟩,
  ⟨"ym__oneloop__gluon__dressing_inv_landau_sep", [.r, .r, .r, .r], .r, fun _ => ffi.ym__oneloop__gluon__dressing_inv_landau_sep⟩,
  ⟨"ym__oneloop__gluon__dressing_inv_landau_sep__complex", [.c, .c, .c, .r], .c, fun _ => ffi.ym__oneloop__gluon__dressing_inv_landau_sep__complex⟩,
  ⟨"ym__oneloop__gluon__dressing_inv_sep", [.r, .r, .r, .r, .r], .r, fun _ => ffi.ym__oneloop__gluon__dressing_inv_sep⟩,
  ⟨"ym__oneloop__gluon__dressing_inv_sep__complex", [.c, .c, .c, .r, .r], .c, fun _ => ffi.ym__oneloop__gluon__dressing_inv_sep__complex⟩,
  ⟨"oneloop__ghost__self_energy_thermal_part_landau_i", [.r, .r, .r, .r, .r], .c, fun _ => ffi.oneloop__ghost__self_energy_thermal_part_landau_i⟩,
  ⟨"oneloop__zero_matsubara__ghost__self_energy_thermal_part_landau_i", [.r, .r, .r, .r], .c, fun _ => ffi.oneloop__zero_matsubara__ghost__self_energy_thermal_part_landau_i⟩,
  ⟨"oneloop__zero_momentum__ghost__self_energy_thermal_part_landau_i", [.r, .r, .r, .r], .c, fun _ => ffi.oneloop__zero_momentum__ghost__self_energy_thermal_part_landau_i⟩,
  ⟨"oneloop__gluon__polarization_glue_l_thermal_part_landau_i", [.r, .r, .r, .r, .r], .c, fun _ => ffi.oneloop__gluon__polarization_glue_l_thermal_part_landau_i⟩,
  ⟨"oneloop__gluon__polarization_glue_t_thermal_part_landau_i", [.r, .r, .r, .r, .r], .c, fun _ => ffi.oneloop__gluon__polarization_glue_t_thermal_part_landau_i⟩,
  ⟨"oneloop__gluon__polarization_quark_l_thermal_part_landau_i", [.r, .r, .r, .r, .r, .r], .c, ffi.oneloop__gluon__polarization_quark_l_thermal_part_landau_i⟩,
  ⟨"oneloop__gluon__polarization_quark_t_thermal_part_landau_i", [.r, .r, .r, .r, .r, .r], .c, ffi.oneloop__gluon__polarization_quark_t_thermal_part_landau_i⟩,
  ⟨"oneloop__gluon__polarization_quark_l_thermal_part_zero_temp_landau_i", [.r, .r, .r, .r, .r], .c, ffi.oneloop__gluon__polarization_quark_l_thermal_part_zero_temp_landau_i⟩,
  ⟨"oneloop__gluon__polarization_quark_t_thermal_part_zero_temp_landau_i", [.r, .r, .r, .r, .r], .c, ffi.oneloop__gluon__polarization_quark_t_thermal_part_zero_temp_landau_i⟩,
  ⟨"oneloop__zero_matsubara__gluon__polarization_glue_l_thermal_part_landau_i", [.r, .r, .r, .r], .c, fun _ => ffi.oneloop__zero_matsubara__gluon__polarization_glue_l_thermal_part_landau_i⟩,
  ⟨"oneloop__zero_matsubara__gluon__polarization_glue_t_thermal_part_landau_i", [.r, .r, .r, .r], .c, fun _ => ffi.oneloop__zero_matsubara__gluon__polarization_glue_t_thermal_part_landau_i⟩,
  ⟨"oneloop__zero_matsubara__gluon__polarization_quark_l_thermal_part_landau_i", [.r, .r, .r, .r, .r], .r, ffi.oneloop__zero_matsubara__gluon__polarization_quark_l_thermal_part_landau_i⟩,
  ⟨"oneloop__zero_matsubara__gluon__polarization_quark_t_thermal_part_landau_i", [.r, .r, .r, .r, .r], .r, ffi.oneloop__zero_matsubara__gluon__polarization_quark_t_thermal_part_landau_i⟩,
  ⟨"oneloop__zero_matsubara__gluon__polarization_quark_l_thermal_part_zero_temp_landau_i", [.r, .r, .r, .r], .r, ffi.oneloop__zero_matsubara__gluon__polarization_quark_l_thermal_part_zero_temp_landau_i⟩,
  ⟨"oneloop__zero_matsubara__gluon__polarization_quark_t_thermal_part_zero_temp_landau_i", [.r, .r, .r, .r], .r, ffi.oneloop__zero_matsubara__gluon__polarization_quark_t_thermal_part_zero_temp_landau_i⟩,
  ⟨"oneloop__zero_momentum__gluon__polarization_glue_l_thermal_part_landau_i", [.r, .r, .r, .r], .c, fun _ => ffi.oneloop__zero_momentum__gluon__polarization_glue_l_thermal_part_landau_i⟩,
  ⟨"oneloop__zero_momentum__gluon__polarization_glue_t_thermal_part_landau_i", [.r, .r, .r, .r], .c, fun _ => ffi.oneloop__zero_momentum__gluon__polarization_glue_t_thermal_part_landau_i⟩,
  ⟨"oneloop__zero_momentum__gluon__polarization_quark_l_thermal_part_landau_i", [.r, .r, .r, .r, .r], .r, ffi.oneloop__zero_momentum__gluon__polarization_quark_l_thermal_part_landau_i⟩,
  ⟨"oneloop__zero_momentum__gluon__polarization_quark_t_thermal_part_landau_i", [.r, .r, .r, .r, .r], .r, ffi.oneloop__zero_momentum__gluon__polarization_quark_t_thermal_part_landau_i⟩,
  ⟨"oneloop__zero_momentum__gluon__polarization_quark_l_thermal_part_zero_temp_landau_i", [.r, .r, .r, .r], .r, ffi.oneloop__zero_momentum__gluon__polarization_quark_l_thermal_part_zero_temp_landau_i⟩,
  ⟨"oneloop__zero_momentum__gluon__polarization_quark_t_thermal_part_zero_temp_landau_i", [.r, .r, .r, .r], .r, ffi.oneloop__zero_momentum__gluon__polarization_quark_t_thermal_part_zero_temp_landau_i⟩,
  ⟨"oneloop__tlog", [.r, .r, .r, .r, .r], .c, fun _ => ffi.oneloop__tlog⟩,
  ⟨"oneloop__tlog_same_mass", [.r, .r, .r, .r], .c, fun _ => ffi.oneloop__tlog_same_mass⟩,
  ⟨"oneloop__tlog_zero_mass", [.r, .r, .r], .c, fun _ => ffi.oneloop__tlog_zero_mass⟩,
  ⟨"oneloop__tlog_l", [.r, .r, .r, .r, .r], .c, fun _ => ffi.oneloop__tlog_l⟩,
  ⟨"oneloop__tlog_l_same_mass", [.r, .r, .r, .r], .c, fun _ => ffi.oneloop__tlog_l_same_mass⟩,
  ⟨"oneloop__tlog_l_zero_mass", [.r, .r, .r], .c, fun _ => ffi.oneloop__tlog_l_zero_mass⟩,
  ⟨"oneloop__tlog_t", [.r, .r, .r, .r, .r], .c, fun _ => ffi.oneloop__tlog_t⟩,
  ⟨"oneloop__tlog_t_same_mass", [.r, .r, .r, .r], .c, fun _ => ffi.oneloop__tlog_t_same_mass⟩,
  ⟨"oneloop__tlog_t_zero_mass", [.r, .r, .r], .c, fun _ => ffi.oneloop__tlog_t_zero_mass⟩,
  ⟨"oneloop__j_m_i", [.r, .r, .r], .r, fun _ => ffi.oneloop__j_m_i⟩,
  ⟨"oneloop__j_0_i", [.r, .r], .r, fun _ => ffi.oneloop__j_0_i⟩,
  ⟨"oneloop__j_m_l_i", [.r, .r, .r], .r, fun _ => ffi.oneloop__j_m_l_i⟩,
  ⟨"oneloop__j_0_l_i", [.r, .r], .r, fun _ => ffi.oneloop__j_0_l_i⟩,
  ⟨"oneloop__j_m_t_i", [.r, .r, .r], .r, fun _ => ffi.oneloop__j_m_t_i⟩,
  ⟨"oneloop__j_0_t_i", [.r, .r], .r, fun _ => ffi.oneloop__j_0_t_i⟩,
  ⟨"oneloop__i_m_m_i", [.r, .r, .r, .r, .r, .r], .c, fun _ => ffi.oneloop__i_m_m_i⟩,
  ⟨"oneloop__i_m_m_i_same_mass", [.r, .r, .r, .r, .r], .c, fun _ => ffi.oneloop__i_m_m_i_same_mass⟩,
  ⟨"oneloop__i_m_0_i", [.r, .r, .r, .r, .r], .c, fun _ => ffi.oneloop__i_m_0_i⟩,
  ⟨"oneloop__i_0_0_i", [.r, .r, .r, .r], .c, fun _ => ffi.oneloop__i_0_0_i⟩,
  ⟨"oneloop__i_m_m_l_i", [.r, .r, .r, .r, .r, .r], .c, fun _ => ffi.oneloop__i_m_m_l_i⟩,
  ⟨"oneloop__i_m_m_l_i_same_mass", [.r, .r, .r, .r, .r], .c, fun _ => ffi.oneloop__i_m_m_l_i_same_mass⟩,
  ⟨"oneloop__i_m_0_l_i", [.r, .r, .r, .r, .r], .c, fun _ => ffi.oneloop__i_m_0_l_i⟩,
  ⟨"oneloop__i_0_0_l_i", [.r, .r, .r, .r], .c, fun _ => ffi.oneloop__i_0_0_l_i⟩,
  ⟨"oneloop__i_m_m_t_i", [.r, .r, .r, .r, .r, .r], .c, fun _ => ffi.oneloop__i_m_m_t_i⟩,
  ⟨"oneloop__i_m_m_t_i_same_mass", [.r, .r, .r, .r, .r], .c, fun _ => ffi.oneloop__i_m_m_t_i_same_mass⟩,
  ⟨"oneloop__i_m_0_t_i", [.r, .r, .r, .r, .r], .c, fun _ => ffi.oneloop__i_m_0_t_i⟩,
  ⟨"oneloop__i_0_0_t_i", [.r, .r, .r, .r], .c, fun _ => ffi.oneloop__i_0_0_t_i⟩,
  ⟨"oneloop__d_j_m_i", [.r, .r, .r], .r, fun _ => ffi.oneloop__d_j_m_i⟩,
  ⟨"oneloop__d_j_0_i", [.r, .r], .r, fun _ => ffi.oneloop__d_j_0_i⟩,
  ⟨"oneloop__d2_j_m_i", [.r, .r, .r], .r, fun _ => ffi.oneloop__d2_j_m_i⟩,
  ⟨"oneloop__d2_j_0_i", [.r, .r], .r, fun _ => ffi.oneloop__d2_j_0_i⟩,
  ⟨"oneloop__d_j_m_l_i", [.r, .r, .r], .r, fun _ => ffi.oneloop__d_j_m_l_i⟩,
  ⟨"oneloop__d_j_0_l_i", [.r, .r], .r, fun _ => ffi.oneloop__d_j_0_l_i⟩,
  ⟨"oneloop__d2_j_m_l_i", [.r, .r, .r], .r, fun _ => ffi.oneloop__d2_j_m_l_i⟩,
  ⟨"oneloop__d2_j_0_l_i", [.r, .r], .r, fun _ => ffi.oneloop__d2_j_0_l_i⟩,
  ⟨"oneloop__d_j_m_t_i", [.r, .r, .r], .r, fun _ => ffi.oneloop__d_j_m_t_i⟩,
  ⟨"oneloop__d_j_0_t_i", [.r, .r], .r, fun _ => ffi.oneloop__d_j_0_t_i⟩,
  ⟨"oneloop__d2_j_m_t_i", [.r, .r, .r], .r, fun _ => ffi.oneloop__d2_j_m_t_i⟩,
  ⟨"oneloop__d2_j_0_t_i", [.r, .r], .r, fun _ => ffi.oneloop__d2_j_0_t_i⟩,
  ⟨"oneloop__d_i_m_m_i", [.r, .r, .r, .r, .r, .r], .c, fun _ => ffi.oneloop__d_i_m_m_i⟩,
  ⟨"oneloop__d_i_m_m_i_same_mass", [.r, .r, .r, .r, .r], .c, fun _ => ffi.oneloop__d_i_m_m_i_same_mass⟩,
  ⟨"oneloop__d_i_m_0_i", [.r, .r, .r, .r, .r], .c, fun _ => ffi.oneloop__d_i_m_0_i⟩,
  ⟨"oneloop__d_i_0_0_i", [.r, .r, .r, .r], .c, fun _ => ffi.oneloop__d_i_0_0_i⟩,
  ⟨"oneloop__d_i_m_m_l_i", [.r, .r, .r, .r, .r, .r], .c, fun _ => ffi.oneloop__d_i_m_m_l_i⟩,
  ⟨"oneloop__d_i_m_m_l_i_same_mass", [.r, .r, .r, .r, .r], .c, fun _ => ffi.oneloop__d_i_m_m_l_i_same_mass⟩,
  ⟨"oneloop__d_i_m_0_l_i", [.r, .r, .r, .r, .r], .c, fun _ => ffi.oneloop__d_i_m_0_l_i⟩,
  ⟨"oneloop__d_i_0_0_l_i", [.r, .r, .r, .r], .c, fun _ => ffi.oneloop__d_i_0_0_l_i⟩,
  ⟨"oneloop__d_i_m_m_t_i", [.r, .r, .r, .r, .r, .r], .c, fun _ => ffi.oneloop__d_i_m_m_t_i⟩,
  ⟨"oneloop__d_i_m_m_t_i_same_mass", [.r, .r, .r, .r, .r], .c, fun _ => ffi.oneloop__d_i_m_m_t_i_same_mass⟩,
  ⟨"oneloop__d_i_m_0_t_i", [.r, .r, .r, .r, .r], .c, fun _ => ffi.oneloop__d_i_m_0_t_i⟩,
  ⟨"oneloop__d_i_0_0_t_i", [.r, .r, .r, .r], .c, fun _ => ffi.oneloop__d_i_0_0_t_i⟩,
  ⟨"oneloop__zero_matsubara__tlog", [.r, .r, .r], .c, fun _ => ffi.oneloop__zero_matsubara__tlog⟩,
  ⟨"oneloop__zero_matsubara__tlog_same_mass", [.r, .r], .r, fun _ => ffi.oneloop__zero_matsubara__tlog_same_mass⟩,
  ⟨"oneloop__zero_matsubara__tlog_zero_mass", [.r, .r], .r, fun _ => ffi.oneloop__zero_matsubara__tlog_zero_mass⟩,
  ⟨"oneloop__zero_matsubara__tlog_t", [.r, .r, .r], .c, fun _ => ffi.oneloop__zero_matsubara__tlog_t⟩,
  ⟨"oneloop__zero_matsubara__tlog_t_same_mass", [.r, .r], .r, fun _ => ffi.oneloop__zero_matsubara__tlog_t_same_mass⟩,
  ⟨"oneloop__zero_matsubara__tlog_t_zero_mass", [.r, .r], .r, fun _ => ffi.oneloop__zero_matsubara__tlog_t_zero_mass⟩,
  ⟨"oneloop__zero_matsubara__i_m_m_i", [.r, .r, .r, .r, .r], .c, fun _ => ffi.oneloop__zero_matsubara__i_m_m_i⟩,
  ⟨"oneloop__zero_matsubara__i_m_m_i_same_mass", [.r, .r, .r, .r], .r, fun _ => ffi.oneloop__zero_matsubara__i_m_m_i_same_mass⟩,
  ⟨"oneloop__zero_matsubara__i_m_0_i", [.r, .r, .r, .r], .c, fun _ => ffi.oneloop__zero_matsubara__i_m_0_i⟩,
  ⟨"oneloop__zero_matsubara__i_0_0_i", [.r, .r, .r], .r, fun _ => ffi.oneloop__zero_matsubara__i_0_0_i⟩,
  ⟨"oneloop__zero_matsubara__i_m_m_l_i", [.r, .r, .r, .r, .r], .c, fun _ => ffi.oneloop__zero_matsubara__i_m_m_l_i⟩,
  ⟨"oneloop__zero_matsubara__i_m_m_l_i_same_mass", [.r, .r, .r, .r], .r, fun _ => ffi.oneloop__zero_matsubara__i_m_m_l_i_same_mass⟩,
  ⟨"oneloop__zero_matsubara__i_m_0_l_i", [.r, .r, .r, .r], .c, fun _ => ffi.oneloop__zero_matsubara__i_m_0_l_i⟩,
  ⟨"oneloop__zero_matsubara__i_0_0_l_i", [.r, .r, .r], .r, fun _ => ffi.oneloop__zero_matsubara__i_0_0_l_i⟩,
  ⟨"oneloop__zero_matsubara__i_m_m_t_i", [.r, .r, .r, .r, .r], .c, fun _ => ffi.oneloop__zero_matsubara__i_m_m_t_i⟩,
  ⟨"oneloop__zero_matsubara__i_m_m_t_i_same_mass", [.r, .r, .r, .r], .r, fun _ => ffi.oneloop__zero_matsubara__i_m_m_t_i_same_mass⟩,
  ⟨"oneloop__zero_matsubara__i_m_0_t_i", [.r, .r, .r, .r], .c, fun _ => ffi.oneloop__zero_matsubara__i_m_0_t_i⟩,
  ⟨"oneloop__zero_matsubara__i_0_0_t_i", [.r, .r, .r], .r, fun _ => ffi.oneloop__zero_matsubara__i_0_0_t_i⟩,
  ⟨"oneloop__zero_matsubara__d_i_m_m_i", [.r, .r, .r, .r, .r], .c, fun _ => ffi.oneloop__zero_matsubara__d_i_m_m_i⟩,
  ⟨"oneloop__zero_matsubara__d_i_m_m_i_same_mass", [.r, .r, .r, .r], .r, fun _ => ffi.oneloop__zero_matsubara__d_i_m_m_i_same_mass⟩,
  ⟨"oneloop__zero_matsubara__d_i_m_0_i", [.r, .r, .r, .r], .r, fun _ => ffi.oneloop__zero_matsubara__d_i_m_0_i⟩,
  ⟨"oneloop__zero_matsubara__d_i_0_0_i", [.r, .r, .r], .r, fun _ => ffi.oneloop__zero_matsubara__d_i_0_0_i⟩,
  ⟨"oneloop__zero_matsubara__d_i_m_m_l_i", [.r, .r, .r, .r, .r], .c, fun _ => ffi.oneloop__zero_matsubara__d_i_m_m_l_i⟩,
  ⟨"oneloop__zero_matsubara__d_i_m_m_l_i_same_mass", [.r, .r, .r, .r], .r, fun _ => ffi.oneloop__zero_matsubara__d_i_m_m_l_i_same_mass⟩,
  ⟨"oneloop__zero_matsubara__d_i_m_0_l_i", [.r, .r, .r, .r], .r, fun _ => ffi.oneloop__zero_matsubara__d_i_m_0_l_i⟩,
  ⟨"oneloop__zero_matsubara__d_i_0_0_l_i", [.r, .r, .r], .r, fun _ => ffi.oneloop__zero_matsubara__d_i_0_0_l_i⟩,
  ⟨"oneloop__zero_matsubara__d_i_m_m_t_i", [.r, .r, .r, .r, .r], .c, fun _ => ffi.oneloop__zero_matsubara__d_i_m_m_t_i⟩,
  ⟨"oneloop__zero_matsubara__d_i_m_m_t_i_same_mass", [.r, .r, .r, .r], .r, fun _ => ffi.oneloop__zero_matsubara__d_i_m_m_t_i_same_mass⟩,
  ⟨"oneloop__zero_matsubara__d_i_m_0_t_i", [.r, .r, .r, .r], .c, fun _ => ffi.oneloop__zero_matsubara__d_i_m_0_t_i⟩,
  ⟨"oneloop__zero_matsubara__d_i_0_0_t_i", [.r, .r, .r], .r, fun _ => ffi.oneloop__zero_matsubara__d_i_0_0_t_i⟩,
  ⟨"oneloop__zero_momentum__i_m_m_i", [.r, .r, .r, .r, .r], .c, fun _ => ffi.oneloop__zero_momentum__i_m_m_i⟩,
  ⟨"oneloop__zero_momentum__i_m_m_i_same_mass", [.r, .r, .r, .r], .c, fun _ => ffi.oneloop__zero_momentum__i_m_m_i_same_mass⟩,
  ⟨"oneloop__zero_momentum__i_m_0_i", [.r, .r, .r, .r], .c, fun _ => ffi.oneloop__zero_momentum__i_m_0_i⟩,
  ⟨"oneloop__zero_momentum__i_0_0_i", [.r, .r, .r], .c, fun _ => ffi.oneloop__zero_momentum__i_0_0_i⟩,
  ⟨"oneloop__zero_momentum__i_m_m_l_i", [.r, .r, .r, .r, .r], .c, fun _ => ffi.oneloop__zero_momentum__i_m_m_l_i⟩,
  ⟨"oneloop__zero_momentum__i_m_m_l_i_same_mass", [.r, .r, .r, .r], .c, fun _ => ffi.oneloop__zero_momentum__i_m_m_l_i_same_mass⟩,
  ⟨"oneloop__zero_momentum__i_m_0_l_i", [.r, .r, .r, .r], .c, fun _ => ffi.oneloop__zero_momentum__i_m_0_l_i⟩,
  ⟨"oneloop__zero_momentum__i_0_0_l_i", [.r, .r, .r], .c, fun _ => ffi.oneloop__zero_momentum__i_0_0_l_i⟩,
  ⟨"oneloop__zero_momentum__i_m_m_t_i", [.r, .r, .r, .r, .r], .c, fun _ => ffi.oneloop__zero_momentum__i_m_m_t_i⟩,
  ⟨"oneloop__zero_momentum__i_m_m_t_i_same_mass", [.r, .r, .r, .r], .c, fun _ => ffi.oneloop__zero_momentum__i_m_m_t_i_same_mass⟩,
  ⟨"oneloop__zero_momentum__i_m_0_t_i", [.r, .r, .r, .r], .c, fun _ => ffi.oneloop__zero_momentum__i_m_0_t_i⟩,
  ⟨"oneloop__zero_momentum__i_0_0_t_i", [.r, .r, .r], .c, fun _ => ffi.oneloop__zero_momentum__i_0_0_t_i⟩,
  ⟨"oneloop__zero_momentum__d_i_m_m_i", [.r, .r, .r, .r, .r], .c, fun _ => ffi.oneloop__zero_momentum__d_i_m_m_i⟩,
  ⟨"oneloop__zero_momentum__d_i_m_m_i_same_mass", [.r, .r, .r, .r], .c, fun _ => ffi.oneloop__zero_momentum__d_i_m_m_i_same_mass⟩,
  ⟨"oneloop__zero_momentum__d_i_m_0_i", [.r, .r, .r, .r], .c, fun _ => ffi.oneloop__zero_momentum__d_i_m_0_i⟩,
  ⟨"oneloop__zero_momentum__d_i_0_0_i", [.r, .r, .r], .c, fun _ => ffi.oneloop__zero_momentum__d_i_0_0_i⟩,
  ⟨"oneloop__zero_momentum__d_i_m_m_l_i", [.r, .r, .r, .r, .r], .c, fun _ => ffi.oneloop__zero_momentum__d_i_m_m_l_i⟩,
  ⟨"oneloop__zero_momentum__d_i_m_m_l_i_same_mass", [.r, .r, .r, .r], .c, fun _ => ffi.oneloop__zero_momentum__d_i_m_m_l_i_same_mass⟩,
  ⟨"oneloop__zero_momentum__d_i_m_0_l_i", [.r, .r, .r, .r], .c, fun _ => ffi.oneloop__zero_momentum__d_i_m_0_l_i⟩,
  ⟨"oneloop__zero_momentum__d_i_0_0_l_i", [.r, .r, .r], .c, fun _ => ffi.oneloop__zero_momentum__d_i_0_0_l_i⟩,
  ⟨"oneloop__zero_momentum__d_i_m_m_t_i", [.r, .r, .r, .r, .r], .c, fun _ => ffi.oneloop__zero_momentum__d_i_m_m_t_i⟩,
  ⟨"oneloop__zero_momentum__d_i_m_m_t_i_same_mass", [.r, .r, .r, .r], .c, fun _ => ffi.oneloop__zero_momentum__d_i_m_m_t_i_same_mass⟩,
  ⟨"oneloop__zero_momentum__d_i_m_0_t_i", [.r, .r, .r, .r], .c, fun _ => ffi.oneloop__zero_momentum__d_i_m_0_t_i⟩,
  ⟨"oneloop__zero_momentum__d_i_0_0_t_i", [.r, .r, .r], .c, fun _ => ffi.oneloop__zero_momentum__d_i_0_0_t_i⟩,
  ⟨"qcd__ghost__dressing_inv_landau", [.r, .r], .r, fun _ => ffi.qcd__ghost__dressing_inv_landau⟩,
  ⟨"qcd__ghost__dressing_inv_landau__complex", [.c, .r], .c, fun _ => ffi.qcd__ghost__dressing_inv_landau__complex⟩,
  ⟨"qcd__ghost__dressing_inv", [.r, .r, .r], .r, fun _ => ffi.qcd__ghost__dressing_inv⟩,
  ⟨"qcd__ghost__dressing_inv__complex", [.c, .r, .r], .c, fun _ => ffi.qcd__ghost__dressing_inv__complex⟩,
  ⟨"qcd__ghost__dressing_landau", [.r, .r], .r, fun _ => ffi.qcd__ghost__dressing_landau⟩,
  ⟨"qcd__ghost__dressing_landau__complex", [.c, .r], .c, fun _ => ffi.qcd__ghost__dressing_landau__complex⟩,
  ⟨"qcd__ghost__dressing", [.r, .r, .r], .r, fun _ => ffi.qcd__ghost__dressing⟩,
  ⟨"qcd__ghost__dressing__complex", [.c, .r, .r], .c, fun _ => ffi.qcd__ghost__dressing__complex⟩,
  ⟨"qcd__gluon__dressing_inv_landau", [.r, .r, .r], .r, ffi.qcd__gluon__dressing_inv_landau⟩,
  ⟨"qcd__gluon__dressing_inv_landau__complex", [.c, .r, .r], .c, ffi.qcd__gluon__dressing_inv_landau__complex⟩,
  ⟨"qcd__gluon__dressing_inv", [.r, .r, .r, .r], .r, ffi.qcd__gluon__dressing_inv⟩,
  ⟨"qcd__gluon__dressing_inv__complex", [.c, .r, .r, .r], .c, ffi.qcd__gluon__dressing_inv__complex⟩,
  ⟨"qcd__gluon__dressing_landau", [.r, .r, .r], .r, ffi.qcd__gluon__dressing_landau⟩,
  ⟨"qcd__gluon__dressing_landau__complex", [.c, .r, .r], .c, ffi.qcd__gluon__dressing_landau__complex⟩,
  ⟨"qcd__gluon__dressing", [.r, .r, .r, .r], .r, ffi.qcd__gluon__dressing⟩,
  ⟨"qcd__gluon__dressing__complex", [.c, .r, .r, .r], .c, ffi.qcd__gluon__dressing__complex⟩,
  ⟨"qcd__gluon__propagator_landau", [.r, .r, .r], .r, ffi.qcd__gluon__propagator_landau⟩,
  ⟨"qcd__gluon__propagator_landau__complex", [.c, .r, .r], .c, ffi.qcd__gluon__propagator_landau__complex⟩,
  ⟨"qcd__gluon__propagator", [.r, .r, .r, .r], .r, ffi.qcd__gluon__propagator⟩,
  ⟨"qcd__gluon__propagator__complex", [.c, .r, .r, .r], .c, ffi.qcd__gluon__propagator__complex⟩,
  ⟨"qcd__gluon__dressing_crossed_inv_landau", [.r, .r, .r], .r, ffi.qcd__gluon__dressing_crossed_inv_landau⟩,
  ⟨"qcd__gluon__dressing_crossed_inv_landau__complex", [.c, .r, .r], .c, ffi.qcd__gluon__dressing_crossed_inv_landau__complex⟩,
  ⟨"qcd__gluon__dressing_crossed_inv", [.r, .r, .r, .r], .r, ffi.qcd__gluon__dressing_crossed_inv⟩,
  ⟨"qcd__gluon__dressing_crossed_inv__complex", [.c, .r, .r, .r], .c, ffi.qcd__gluon__dressing_crossed_inv__complex⟩,
  ⟨"qcd__gluon__dressing_crossed_landau", [.r, .r, .r], .r, ffi.qcd__gluon__dressing_crossed_landau⟩,
  ⟨"qcd__gluon__dressing_crossed_landau__complex", [.c, .r, .r], .c, ffi.qcd__gluon__dressing_crossed_landau__complex⟩,
  ⟨"qcd__gluon__dressing_crossed", [.r, .r, .r, .r], .r, ffi.qcd__gluon__dressing_crossed⟩,
  ⟨"qcd__gluon__dressing_crossed__complex", [.c, .r, .r, .r], .c, ffi.qcd__gluon__dressing_crossed__complex⟩,
  ⟨"qcd__gluon__propagator_crossed_landau", [.r, .r, .r], .r, ffi.qcd__gluon__propagator_crossed_landau⟩,
  ⟨"qcd__gluon__propagator_crossed_landau__complex", [.c, .r, .r], .c, ffi.qcd__gluon__propagator_crossed_landau__complex⟩,
  ⟨"qcd__gluon__propagator_crossed", [.r, .r, .r, .r], .r, ffi.qcd__gluon__propagator_crossed⟩,
  ⟨"qcd__gluon__propagator_crossed__complex", [.c, .r, .r, .r], .c, ffi.qcd__gluon__propagator_crossed__complex⟩,
  ⟨"ym__ghost__dressing_inv_landau", [.r, .r], .r, fun _ => ffi.ym__ghost__dressing_inv_landau⟩,
  ⟨"ym__ghost__dressing_inv_landau__complex", [.c, .r], .c, fun _ => ffi.ym__ghost__dressing_inv_landau__complex⟩,
  ⟨"ym__ghost__dressing_inv", [.r, .r, .r], .r, fun _ => ffi.ym__ghost__dressing_inv⟩,
  ⟨"ym__ghost__dressing_inv__complex", [.c, .r, .r], .c, fun _ => ffi.ym__ghost__dressing_inv__complex⟩,
  ⟨"ym__ghost__dressing_landau", [.r, .r], .r, fun _ => ffi.ym__ghost__dressing_landau⟩,
  ⟨"ym__ghost__dressing_landau__complex", [.c, .r], .c, fun _ => ffi.ym__ghost__dressing_landau__complex⟩,
  ⟨"ym__ghost__dressing", [.r, .r, .r], .r, fun _ => ffi.ym__ghost__dressing⟩,
  ⟨"ym__ghost__dressing__complex", [.c, .r, .r], .c, fun _ => ffi.ym__ghost__dressing__complex⟩,
  ⟨"ym__ghost__propagator_landau", [.r, .r], .r, fun _ => ffi.ym__ghost__propagator_landau⟩,
  ⟨"ym__ghost__propagator_landau__complex", [.c, .r], .c, fun _ => ffi.ym__ghost__propagator_landau__complex⟩,
  ⟨"ym__ghost__propagator", [.r, .r, .r], .r, fun _ => ffi.ym__ghost__propagator⟩,
  ⟨"ym__ghost__propagator__complex", [.c, .r, .r], .c, fun _ => ffi.ym__ghost__propagator__complex⟩,
  ⟨"ym__gluon__dressing_inv_landau", [.r, .r], .r, fun _ => ffi.ym__gluon__dressing_inv_landau⟩,
  ⟨"ym__gluon__dressing_inv_landau__complex", [.c, .r], .c, fun _ => ffi.ym__gluon__dressing_inv_landau__complex⟩,
  ⟨"ym__gluon__dressing_inv", [.r, .r, .r], .r, fun _ => ffi.ym__gluon__dressing_inv⟩,
  ⟨"ym__gluon__dressing_inv__complex", [.c, .r, .r], .c, fun _ => ffi.ym__gluon__dressing_inv__complex⟩,
  ⟨"ym__gluon__dressing_landau", [.r, .r], .r, fun _ => ffi.ym__gluon__dressing_landau⟩,
  ⟨"ym__gluon__dressing_landau__complex", [.c, .r], .c, fun _ => ffi.ym__gluon__dressing_landau__complex⟩,
  ⟨"ym__gluon__dressing", [.r, .r, .r], .r, fun _ => ffi.ym__gluon__dressing⟩,
  ⟨"ym__gluon__dressing__complex", [.c, .r, .r], .c, fun _ => ffi.ym__gluon__dressing__complex⟩,
  ⟨"ym__gluon__propagator_landau", [.r, .r], .r, fun _ => ffi.ym__gluon__propagator_landau⟩,
  ⟨"ym__gluon__propagator_landau__complex", [.c, .r], .c, fun _ => ffi.ym__gluon__propagator_landau__complex⟩,
  ⟨"ym__gluon__propagator", [.r, .r, .r], .r, fun _ => ffi.ym__gluon__propagator⟩,
  ⟨"ym__gluon__propagator__complex", [.c, .r, .r], .c, fun _ => ffi.ym__gluon__propagator__complex⟩]

/-- The exported setters (consts.rs l.29, l.54, l.88, l.116, l.141, l.176) with the type of their argument. -/
structure ExportSetter where
  symbol : String
  arg : Ty
  setter : arg.Carrier → Setter ℝ

/-- The exported setters: consts.rs l.29, 54, 88, 116, 141, 176. -/
def setters : List ExportSetter := [
  ⟨"set_number_of_colors", .n, .number_of_colors⟩,
  ⟨"set_number_of_fermions", .n, .number_of_fermions⟩,
  ⟨"set_default_quark_mass", .r, .default_quark_mass⟩,
  ⟨"set_default_tol_integral", .r, .default_tol_integral⟩,
  ⟨"set_default_max_iter_integral", .n, .default_max_iter_integral⟩,
  ⟨"set_matsubara_reg", .r, .matsubara_reg⟩]

/-- A call by name (ffi.rs l.3-6). -/
structure CCall where
  symbol : String
  args : List Val

/-- What the caller sees: a value, the return of a `void` function, the end of the process (a failed `assert!` cannot unwind out of
an `extern "C"` function), or undefined behaviour (ffi.rs l.3-6; the asserts are those of consts.rs l.117, l.177). -/
inductive CResult where
  | value (v : Val)
  | void
  | abort
  | undefined

/-- One call. The dynamic linker resolves the name to the first definition (ffi.rs l.3-6). -/
noncomputable def CCall.run (c : CCall) (k : Consts ℝ) : CResult × Consts ℝ :=
  match exports.find? (·.symbol = c.symbol) with
  | some e =>
    match Ty.apply e.args (e.fn k) c.args with
    | some x => (.value ⟨e.ret, x⟩, k)
    | none => (.undefined, k)
  | none =>
    match setters.find? (·.symbol = c.symbol), c.args with
    | some e, [v] =>
      if h : v.ty = e.arg then
        let o := (e.setter (h ▸ v.val)).call k
        (if o.panicked then .abort else .void, o.state)
      else (.undefined, k)
    | _, _ => (.undefined, k)

/-- A process: calls one after the other, up to the first one that ends it (ffi.rs l.3-6). -/
noncomputable def process : List CCall → Consts ℝ → List CResult
  | [], _ => []
  | c :: cs, k =>
    match c.run k with
    | (.abort, _) => [.abort]
    | (.undefined, _) => [.undefined]
    | (r, k) => r :: process cs k
end Qcd
