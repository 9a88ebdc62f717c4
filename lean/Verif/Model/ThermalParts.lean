import Verif.Model.Thermal
import Verif.Model.Consts

/-! # Thermal parts of the ghost self-energy and gluon polarization: integrands

`low_level/oneloop/thermal/{ghost,gluon}.rs`, the `inlines` modules, transcribed by
`tools/rs2lean.py`. The functions that read the global number of colours take the global
constants `k` as an explicit argument. -/

namespace Qcd
open consts (Consts)

namespace ghost.thermal

/-- low_level/oneloop/thermal/ghost.rs l.77-89. -/
noncomputable def self_energy_thermal_part_landau_i {T : Type} [Num T] (q : ℝ) (om : T) (p : ℝ) (m : ℝ) (beta : ℝ) : ℂ :=
  let s : T := om * om + (ofR (p * p) : T)
  let m2 : ℝ := m * m
  let a : T := s + (ofR m2 : T)
  let t1 : ℂ := toC (-a * s / (ofR (2 * m2) : T)) * thermal.i_m_0_i q om p m beta
  let t2 : ℂ := toC (s * s / (ofR (2 * m2) : T)) * thermal.i_0_0_i q om p beta
  let t3 : T := (s * (ofR 2 : T) - (ofR m2 : T)) / (ofR (4 * m2) : T) * (ofR (thermal.j_m_i q m beta - thermal.j_0_i q beta) : T)
  let t4 : ℂ := toC (a * a / (ofR 4 : T)) * thermal.d_i_m_0_i q om p m beta
  let t5 : T := -(s - (ofR m2 : T)) / (ofR 4 : T) * (ofR (thermal.d_j_m_i q m beta) : T)
  toC t5 + (toC t3 + t1) + t2 + t4

namespace zero_matsubara

/-- low_level/oneloop/thermal/ghost.rs l.147-159. -/
noncomputable def self_energy_thermal_part_landau_i (q : ℝ) (p : ℝ) (m : ℝ) (beta : ℝ) : ℂ :=
  let s : ℝ := p * p
  let m2 : ℝ := m * m
  let a : ℝ := s + m2
  let t1 : ℂ := (ofR (-a * s / (2 * m2)) : ℂ) * thermal.zero_matsubara.i_m_0_i q p m beta
  let t2 : ℝ := s * s / (2 * m2) * thermal.zero_matsubara.i_0_0_i q p beta
  let t3 : ℝ := (s * 2 + -m2) / (4 * m2) * (thermal.j_m_i q m beta - thermal.j_0_i q beta)
  let t4 : ℝ := a * a / 4 * thermal.zero_matsubara.d_i_m_0_i q p m beta
  let t5 : ℝ := -(s - m2) / 4 * thermal.d_j_m_i q m beta;
  (ofR t5 : ℂ) + ((ofR t3 : ℂ) + t1) + (ofR t2 : ℂ) + (ofR t4 : ℂ)

end zero_matsubara

namespace zero_momentum

/-- low_level/oneloop/thermal/ghost.rs l.215-227. -/
noncomputable def self_energy_thermal_part_landau_i {T : Type} [Num T] (q : ℝ) (om : T) (m : ℝ) (beta : ℝ) : ℂ :=
  let s : T := om * om
  let m2 : ℝ := m * m
  let a : T := s + (ofR m2 : T)
  let t1 : ℂ := toC (-a * s / (ofR (2 * m2) : T)) * thermal.zero_momentum.i_m_0_i q om m beta
  let t2 : ℂ := toC (s * s / (ofR (2 * m2) : T)) * thermal.zero_momentum.i_0_0_i q om beta
  let t3 : T := (s * (ofR 2 : T) - (ofR m2 : T)) / (ofR (4 * m2) : T) * (ofR (thermal.j_m_i q m beta - thermal.j_0_i q beta) : T)
  let t4 : ℂ := toC (a * a / (ofR 4 : T)) * thermal.zero_momentum.d_i_m_0_i q om m beta
  let t5 : T := -(s - (ofR m2 : T)) / (ofR 4 : T) * (ofR (thermal.d_j_m_i q m beta) : T)
  toC t5 + (toC t3 + t1) + t2 + t4

end zero_momentum

end ghost.thermal

namespace gluon.thermal

/-- low_level/oneloop/thermal/gluon.rs l.388-436. -/
noncomputable def polarization_glue_l_thermal_part_landau_i {T1 T2 : Type} [Num T1] [Num T2] (q : ℝ) (om : T1) (p : T2) (m : ℝ) (beta : ℝ) : ℂ :=
  let s : ℂ := toC (om * om) + toC (p * p)
  let s2 : ℂ := s * s
  let s_inv : ℂ := s⁻¹
  let m2 : ℝ := m * m
  let m4 : ℝ := m2 * m2
  let a : ℂ := s + (ofR (m2 * 2) : ℂ)
  let b : ℂ := s + (ofR m2 : ℂ)
  let b2 : ℂ := b * b
  let j_m_l_p_i : ℂ := s_inv * (toC (om * om * (ofR (thermal.j_m_t_i q m beta) : T1)) + toC (p * p * (ofR (thermal.j_m_l_i q m beta) : T2)))
  let j_0_l_p_i : ℂ := s_inv * (toC (om * om * (ofR (thermal.j_0_t_i q beta) : T1)) + toC (p * p * (ofR (thermal.j_0_l_i q beta) : T2)))
  let d_j_m_l_p_i : ℂ := s_inv * (toC (om * om * (ofR (thermal.d_j_m_t_i q m beta) : T1)) + toC (p * p * (ofR (thermal.d_j_m_l_i q m beta) : T2)))
  let d2_j_m_l_p_i : ℂ := s_inv * (toC (om * om * (ofR (thermal.d2_j_m_t_i q m beta) : T1)) + toC (p * p * (ofR (thermal.d2_j_m_l_i q m beta) : T2)))
  let t1 : ℂ := (s2 * (ofR 3 : ℂ) / (ofR (m4 * 2) : ℂ) - (ofR 1 : ℂ)) * thermal.i_0_0_l_i q om p beta
  let t2 : ℂ := ((s2 * (ofR 3 : ℂ) + s * (ofR m2 : ℂ) * (ofR 8 : ℂ) + (ofR (4 * m4) : ℂ)) / (ofR (2 * m4) : ℂ) + (ofR 4 : ℂ)) * thermal.i_m_m_l_i_same_mass q om p m beta
  let t3 : ℂ := -(s2 * (ofR 3 : ℂ) + s * (ofR m2 : ℂ) * (ofR 4 : ℂ) + (ofR m4 : ℂ)) / (ofR m4 : ℂ) * thermal.i_m_0_l_i q om p m beta
  let t4 : ℂ := a * s * (ofR 2 : ℂ) / (ofR m2 : ℂ) * thermal.i_m_m_i_same_mass q om p m beta
  let t5 : ℂ := -b * s * (ofR 2 : ℂ) / (ofR m2 : ℂ) * thermal.i_m_0_i q om p m beta
  let t6 : ℂ := -(s * (ofR 2 : ℂ) + (ofR (m2 * 3) : ℂ)) / (ofR m2 : ℂ) * (ofR (thermal.j_m_i q m beta) : ℂ)
  let t7 : ℂ := (s * (ofR 2 : ℂ) + (ofR m2 : ℂ)) / (ofR m2 : ℂ) * (ofR (thermal.j_0_i q beta) : ℂ)
  let t8 : ℂ := -(a * a / (ofR m2 : ℂ) + (ofR (m2 * 8) : ℂ)) * thermal.d_i_m_m_l_i_same_mass q om p m beta
  let t9 : ℂ := b2 / (ofR m2 : ℂ) * thermal.d_i_m_0_l_i q om p m beta
  let t10 : ℂ := -s * (ofR 2 : ℂ) * (s + (ofR (m2 * 4) : ℂ)) * thermal.d_i_m_m_i_same_mass q om p m beta
  let t11 : ℂ := b2 * thermal.d_i_m_0_i q om p m beta
  let t12 : ℂ := (s + (ofR (m2 * 3) : ℂ)) * (ofR (thermal.d_j_m_i q m beta) : ℂ)
  let t13 : ℝ := -m4 * thermal.d2_j_m_i q m beta
  let t14 : ℂ := (j_m_l_p_i - j_0_l_p_i) / (ofR m2 : ℂ)
  let t15 : ℂ := -d_j_m_l_p_i + d2_j_m_l_p_i * (ofR m2 : ℂ) / (ofR 2 : ℂ)
  t14 + t15 + (ofR t13 : ℂ) + t12 + (t7 + (t6 + t1)) + t2 + t3 + t4 + t5 + t8 + t9 + t10 + t11

/-- low_level/oneloop/thermal/gluon.rs l.439-473. -/
noncomputable def polarization_glue_t_thermal_part_landau_i {T : Type} [Num T] (q : ℝ) (om : T) (p : ℝ) (m : ℝ) (beta : ℝ) : ℂ :=
  let s : T := om * om + (ofR (p * p) : T)
  let s2 : T := s * s
  let m2 : ℝ := m * m
  let m4 : ℝ := m2 * m2
  let a : T := s + (ofR (m2 * 2) : T)
  let b : T := s + (ofR m2 : T)
  let b2 : T := b * b
  let t1 : ℂ := toC (s2 * (ofR 3 : T) / (ofR (m4 * 2) : T) - (ofR 1 : T)) * thermal.i_0_0_t_i q om p beta
  let t2 : ℂ := toC ((s2 * (ofR 3 : T) + s * (ofR m2 : T) * (ofR 8 : T) + (ofR (4 * m4) : T)) / (ofR (2 * m4) : T) + (ofR 4 : T)) * thermal.i_m_m_t_i_same_mass q om p m beta
  let t3 : ℂ := toC (-(s2 * (ofR 3 : T) + s * (ofR m2 : T) * (ofR 4 : T) + (ofR m4 : T)) / (ofR m4 : T)) * thermal.i_m_0_t_i q om p m beta
  let t4 : ℂ := toC (a * s * (ofR 2 : T) / (ofR m2 : T)) * thermal.i_m_m_i_same_mass q om p m beta
  let t5 : ℂ := toC (-b * s * (ofR 2 : T) / (ofR m2 : T)) * thermal.i_m_0_i q om p m beta
  let t6 : T := -(s * (ofR 2 : T) + (ofR (m2 * 3) : T)) / (ofR m2 : T) * (ofR (thermal.j_m_i q m beta) : T)
  let t7 : T := (s * (ofR 2 : T) + (ofR m2 : T)) / (ofR m2 : T) * (ofR (thermal.j_0_i q beta) : T)
  let t8 : ℂ := toC (-(a * a / (ofR m2 : T) + (ofR (m2 * 8) : T))) * thermal.d_i_m_m_t_i_same_mass q om p m beta
  let t9 : ℂ := toC (b2 / (ofR m2 : T)) * thermal.d_i_m_0_t_i q om p m beta
  let t10 : ℂ := toC (-s * (ofR 2 : T) * (s + (ofR (m2 * 4) : T))) * thermal.d_i_m_m_i_same_mass q om p m beta
  let t11 : ℂ := toC b2 * thermal.d_i_m_0_i q om p m beta
  let t12 : T := (s + (ofR (m2 * 3) : T)) * (ofR (thermal.d_j_m_i q m beta) : T)
  let t13 : ℝ := -m4 * thermal.d2_j_m_i q m beta
  let t14 : ℝ := (thermal.j_m_t_i q m beta - thermal.j_0_t_i q beta) / m2
  let t15 : ℝ := -thermal.d_j_m_t_i q m beta + thermal.d2_j_m_t_i q m beta * m2 / 2
  toC t12 + (toC t7 + (toC t6 + t1)) + t2 + t3 + t4 + t5 + t8 + t9 + t10 + t11 + (ofR t14 : ℂ) + (ofR t15 : ℂ) + (ofR t13 : ℂ)

/-- low_level/oneloop/thermal/gluon.rs l.476-497. -/
noncomputable def polarization_quark_l_thermal_part_landau_i {T1 T2 : Type} [Num T1] [Num T2] (k : Consts ℝ) (q : ℝ) (om : T1) (p : T2) (mq : ℝ) (beta : ℝ) (mu : ℝ) : ℂ :=
  let p2 : T2 := p * p
  let s : ℂ := toC (om * om) + toC p2
  let en : ℝ := energy q mq
  let tl : ℂ := thermal.tlog_same_mass q om p en
  let tl_opp : ℂ := thermal.tlog_same_mass q (-om) p en
  let t1 : ℂ := (s - (ofR (en * en * 4) : ℂ) + toC (om * (ofR 4 : T1)) * I * (ofR en : ℂ)) * tl
  let t1_opp : ℂ := (s - (ofR (en * en * 4) : ℂ) - toC (om * (ofR 4 : T1)) * I * (ofR en : ℂ)) * tl_opp
  toC (-(p2 * (ofR en : T2) * (ofR (k.nc : ℝ) : T2) * (ofR 2 : T2) * (ofR PI2 : T2))⁻¹ * (ofR (fermi_distribution_double en beta mu) : T2)) * s * (ofR q : ℂ) * (ofR q : ℂ) * ((ofR 1 : ℂ) - toC (p * (ofR q : T2) * (ofR 8 : T2))⁻¹ * (t1 + t1_opp))

/-- low_level/oneloop/thermal/gluon.rs l.500-522. -/
noncomputable def polarization_quark_t_thermal_part_landau_i {T : Type} [Num T] (k : Consts ℝ) (q : ℝ) (om : T) (p : ℝ) (mq : ℝ) (beta : ℝ) (mu : ℝ) : ℂ :=
  let p2 : ℝ := p * p
  let om2 : T := om * om
  let s : T := om2 + (ofR p2 : T)
  let q2 : ℝ := q * q
  let en : ℝ := energy q mq
  let a : T := -om2 + (ofR p2 : T)
  let b : T := a * s + (ofR (4 * q2 * p2) : T) + om2 * (ofR 4 : T) * (ofR en : T) * (ofR en : T)
  let c : ℂ := toC (om * s * (ofR 4 : T)) * I * (ofR en : ℂ)
  let tl : ℂ := thermal.tlog_same_mass q om p en
  let tl_opp : ℂ := thermal.tlog_same_mass q (-om) p en
  let t1 : ℂ := (toC b - c) * tl
  let t1_opp : ℂ := (toC b + c) * tl_opp;
  (ofR (-fermi_distribution_double en beta mu * q2 / (p2 * en * (k.nc : ℝ) * 4 * PI2)) : ℂ) * (toC a - (t1 + t1_opp) / (ofR (8 * q * p) : ℂ))

/-- low_level/oneloop/thermal/gluon.rs l.525-545. -/
noncomputable def polarization_quark_l_thermal_part_zero_temp_landau_i {T1 T2 : Type} [Num T1] [Num T2] (k : Consts ℝ) (q : ℝ) (om : T1) (p : T2) (mq : ℝ) (mu : ℝ) : ℂ :=
  let p2 : T2 := p * p
  let s : ℂ := toC (om * om) + toC p2
  let en : ℝ := energy q mq
  let tl : ℂ := thermal.tlog_same_mass q om p en
  let tl_opp : ℂ := thermal.tlog_same_mass q (-om) p en
  let t1 : ℂ := (s - (ofR (en * en * 4) : ℂ) + toC (om * (ofR 4 : T1)) * I * (ofR en : ℂ)) * tl
  let t1_opp : ℂ := (s - (ofR (en * en * 4) : ℂ) - toC (om * (ofR 4 : T1)) * I * (ofR en : ℂ)) * tl_opp
  toC (-(p2 * (ofR en : T2) * (ofR (k.nc : ℝ) : T2) * (ofR 2 : T2) * (ofR PI2 : T2))⁻¹ * (ofR (fermi_distribution_double_zero_temp en mu) : T2)) * s * (ofR q : ℂ) * (ofR q : ℂ) * ((ofR 1 : ℂ) - toC (p * (ofR q : T2) * (ofR 8 : T2))⁻¹ * (t1 + t1_opp))

/-- low_level/oneloop/thermal/gluon.rs l.548-569. -/
noncomputable def polarization_quark_t_thermal_part_zero_temp_landau_i {T : Type} [Num T] (k : Consts ℝ) (q : ℝ) (om : T) (p : ℝ) (mq : ℝ) (mu : ℝ) : ℂ :=
  let p2 : ℝ := p * p
  let om2 : T := om * om
  let s : T := om2 + (ofR p2 : T)
  let q2 : ℝ := q * q
  let en : ℝ := energy q mq
  let a : T := -om2 + (ofR p2 : T)
  let b : T := a * s + (ofR (4 * q2 * p2) : T) + om2 * (ofR 4 : T) * (ofR en : T) * (ofR en : T)
  let c : ℂ := toC (om * s * (ofR 4 : T)) * I * (ofR en : ℂ)
  let tl : ℂ := thermal.tlog_same_mass q om p en
  let tl_opp : ℂ := thermal.tlog_same_mass q (-om) p en
  let t1 : ℂ := (toC b - c) * tl
  let t1_opp : ℂ := (toC b + c) * tl_opp;
  (ofR (-fermi_distribution_double_zero_temp en mu * q2 / (p2 * en * (k.nc : ℝ) * 4 * PI2)) : ℂ) * (toC a - (t1 + t1_opp) / (ofR (8 * q * p) : ℂ))

namespace zero_matsubara

/-- low_level/oneloop/thermal/gluon.rs l.917-949. -/
noncomputable def polarization_glue_l_thermal_part_landau_i (q : ℝ) (p : ℝ) (m : ℝ) (beta : ℝ) : ℂ :=
  let s : ℝ := p * p
  let s2 : ℝ := s * s
  let m2 : ℝ := m * m
  let m4 : ℝ := m2 * m2
  let a : ℝ := m2 * 2 + s
  let b : ℝ := s + m2
  let j_m_l_p_i : ℝ := thermal.j_m_l_i q m beta
  let j_0_l_p_i : ℝ := thermal.j_0_l_i q beta
  let d_j_m_l_p_i : ℝ := thermal.d_j_m_l_i q m beta
  let d2_j_m_l_p_i : ℝ := thermal.d2_j_m_l_i q m beta
  let t1 : ℝ := (s2 * 3 / (m4 * 2) - 1) * thermal.zero_matsubara.i_0_0_l_i q p beta
  let t2 : ℝ := ((4 * m4 + (s2 * 3 + s * m2 * 8)) / (2 * m4) + 4) * thermal.zero_matsubara.i_m_m_l_i_same_mass q p m beta
  let t3 : ℂ := (ofR (-(s2 * 3 + s * m2 * 4 + m4) / m4) : ℂ) * thermal.zero_matsubara.i_m_0_l_i q p m beta
  let t4 : ℝ := a * s * 2 / m2 * thermal.zero_matsubara.i_m_m_i_same_mass q p m beta
  let t5 : ℂ := (ofR (-b * s * 2 / m2) : ℂ) * thermal.zero_matsubara.i_m_0_i q p m beta
  let t6 : ℝ := -(s * 2 + m2 * 3) / m2 * thermal.j_m_i q m beta
  let t7 : ℝ := (s * 2 + m2) / m2 * thermal.j_0_i q beta
  let t8 : ℝ := -(m2 * 8 + a * a / m2) * thermal.zero_matsubara.d_i_m_m_l_i_same_mass q p m beta
  let t9 : ℝ := b * b / m2 * thermal.zero_matsubara.d_i_m_0_l_i q p m beta
  let t10 : ℝ := -s * 2 * (m2 * 4 + s) * thermal.zero_matsubara.d_i_m_m_i_same_mass q p m beta
  let t11 : ℝ := b * b * thermal.zero_matsubara.d_i_m_0_i q p m beta
  let t12 : ℝ := (m2 * 3 + s) * thermal.d_j_m_i q m beta
  let t13 : ℝ := -m4 * thermal.d2_j_m_i q m beta
  let t14 : ℝ := (j_m_l_p_i - j_0_l_p_i) / m2
  let t15 : ℝ := -d_j_m_l_p_i + d2_j_m_l_p_i * m2 / 2;
  (ofR (t14 + t15 + t13 + t12 + (t7 + (t6 + t1)) + t2) : ℂ) + t3 + (ofR t4 : ℂ) + t5 + (ofR t8 : ℂ) + (ofR t9 : ℂ) + (ofR t10 : ℂ) + (ofR t11 : ℂ)

/-- low_level/oneloop/thermal/gluon.rs l.952-979. -/
noncomputable def polarization_glue_t_thermal_part_landau_i (q : ℝ) (p : ℝ) (m : ℝ) (beta : ℝ) : ℂ :=
  let s : ℝ := p * p
  let s2 : ℝ := s * s
  let m2 : ℝ := m * m
  let m4 : ℝ := m2 * m2
  let a : ℝ := m2 * 2 + s
  let b : ℝ := s + m2
  let t1 : ℝ := (s2 * 3 / (m4 * 2) - 1) * thermal.zero_matsubara.i_0_0_t_i q p beta
  let t2 : ℝ := ((4 * m4 + (s2 * 3 + s * m2 * 8)) / (2 * m4) + 4) * thermal.zero_matsubara.i_m_m_t_i_same_mass q p m beta
  let t3 : ℂ := (ofR (-(s2 * 3 + s * m2 * 4 + m4) / m4) : ℂ) * thermal.zero_matsubara.i_m_0_t_i q p m beta
  let t4 : ℝ := a * s * 2 / m2 * thermal.zero_matsubara.i_m_m_i_same_mass q p m beta
  let t5 : ℂ := (ofR (-b * s * 2 / m2) : ℂ) * thermal.zero_matsubara.i_m_0_i q p m beta
  let t6 : ℝ := -(s * 2 + m2 * 3) / m2 * thermal.j_m_i q m beta
  let t7 : ℝ := (s * 2 + m2) / m2 * thermal.j_0_i q beta
  let t8 : ℝ := -(m2 * 8 + a * a / m2) * thermal.zero_matsubara.d_i_m_m_t_i_same_mass q p m beta
  let t9 : ℂ := (ofR (b * b / m2) : ℂ) * thermal.zero_matsubara.d_i_m_0_t_i q p m beta
  let t10 : ℝ := -s * 2 * (m2 * 4 + s) * thermal.zero_matsubara.d_i_m_m_i_same_mass q p m beta
  let t11 : ℝ := b * b * thermal.zero_matsubara.d_i_m_0_i q p m beta
  let t12 : ℝ := (m2 * 3 + s) * thermal.d_j_m_i q m beta
  let t13 : ℝ := -m4 * thermal.d2_j_m_i q m beta
  let t14 : ℝ := (thermal.j_m_t_i q m beta - thermal.j_0_t_i q beta) / m2
  let t15 : ℝ := -thermal.d_j_m_t_i q m beta + thermal.d2_j_m_t_i q m beta * m2 / 2;
  (ofR (t12 + (t7 + (t6 + t1)) + t2) : ℂ) + t3 + (ofR t4 : ℂ) + t5 + (ofR t8 : ℂ) + t9 + (ofR t10 : ℂ) + (ofR t11 : ℂ) + (ofR t14 : ℂ) + (ofR t15 : ℂ) + (ofR t13 : ℂ)

/-- low_level/oneloop/thermal/gluon.rs l.982-988. -/
noncomputable def polarization_quark_l_thermal_part_landau_i (k : Consts ℝ) (q : ℝ) (p : ℝ) (mq : ℝ) (beta : ℝ) (mu : ℝ) : ℝ :=
  let s : ℝ := p * p
  let en : ℝ := energy q mq
  let t1 : ℝ := (en * en * -4 + s) / (4 * q * p) * thermal.zero_matsubara.tlog_same_mass q p;
  -fermi_distribution_double en beta mu * q * q / (en * (k.nc : ℝ) * 2 * PI2) * (1 - t1)

/-- low_level/oneloop/thermal/gluon.rs l.991-998. -/
noncomputable def polarization_quark_t_thermal_part_landau_i (k : Consts ℝ) (q : ℝ) (p : ℝ) (mq : ℝ) (beta : ℝ) (mu : ℝ) : ℝ :=
  let p2 : ℝ := p * p
  let q2 : ℝ := q * q
  let en : ℝ := energy q mq
  let t1 : ℝ := (4 * q2 + p2) * thermal.zero_matsubara.tlog_same_mass q p;
  -fermi_distribution_double en beta mu * q2 / (en * (k.nc : ℝ) * 4 * PI2) * (1 - t1 / (4 * q * p))

/-- low_level/oneloop/thermal/gluon.rs l.1001-1007. -/
noncomputable def polarization_quark_l_thermal_part_zero_temp_landau_i (k : Consts ℝ) (q : ℝ) (p : ℝ) (mq : ℝ) (mu : ℝ) : ℝ :=
  let s : ℝ := p * p
  let en : ℝ := energy q mq
  let t1 : ℝ := (en * en * -4 + s) / (4 * q * p) * thermal.zero_matsubara.tlog_same_mass q p;
  -fermi_distribution_double_zero_temp en mu * q * q / (en * (k.nc : ℝ) * 2 * PI2) * (1 - t1)

/-- low_level/oneloop/thermal/gluon.rs l.1010-1017. -/
noncomputable def polarization_quark_t_thermal_part_zero_temp_landau_i (k : Consts ℝ) (q : ℝ) (p : ℝ) (mq : ℝ) (mu : ℝ) : ℝ :=
  let p2 : ℝ := p * p
  let q2 : ℝ := q * q
  let en : ℝ := energy q mq
  let t1 : ℝ := (4 * q2 + p2) * thermal.zero_matsubara.tlog_same_mass q p;
  -fermi_distribution_double_zero_temp en mu * q2 / (en * (k.nc : ℝ) * 4 * PI2) * (1 - t1 / (4 * q * p))

end zero_matsubara

namespace zero_momentum

/-- low_level/oneloop/thermal/gluon.rs l.1343-1375. -/
noncomputable def polarization_glue_l_thermal_part_landau_i {T : Type} [Num T] (q : ℝ) (om : T) (m : ℝ) (beta : ℝ) : ℂ :=
  let s : T := om * om
  let s2 : T := s * s
  let m2 : ℝ := m * m
  let m4 : ℝ := m2 * m2
  let a : T := s + (ofR (m2 * 2) : T)
  let b : T := s + (ofR m2 : T)
  let j_m_l_p_i : ℝ := thermal.j_m_t_i q m beta
  let j_0_l_p_i : ℝ := thermal.j_0_t_i q beta
  let d_j_m_l_p_i : ℝ := thermal.d_j_m_t_i q m beta
  let d2_j_m_l_p_i : ℝ := thermal.d2_j_m_t_i q m beta
  let t1 : ℂ := toC (s2 * (ofR 3 : T) / (ofR (m4 * 2) : T) - (ofR 1 : T)) * thermal.zero_momentum.i_0_0_l_i q om beta
  let t2 : ℂ := toC ((s2 * (ofR 3 : T) + s * (ofR m2 : T) * (ofR 8 : T) + (ofR (4 * m4) : T)) / (ofR (2 * m4) : T) + (ofR 4 : T)) * thermal.zero_momentum.i_m_m_l_i_same_mass q om m beta
  let t3 : ℂ := toC (-(s2 * (ofR 3 : T) + s * (ofR m2 : T) * (ofR 4 : T) + (ofR m4 : T)) / (ofR m4 : T)) * thermal.zero_momentum.i_m_0_l_i q om m beta
  let t4 : ℂ := toC (a * s * (ofR 2 : T) / (ofR m2 : T)) * thermal.zero_momentum.i_m_m_i_same_mass q om m beta
  let t5 : ℂ := toC (-b * s * (ofR 2 : T) / (ofR m2 : T)) * thermal.zero_momentum.i_m_0_i q om m beta
  let t6 : T := -(s * (ofR 2 : T) + (ofR (m2 * 3) : T)) / (ofR m2 : T) * (ofR (thermal.j_m_i q m beta) : T)
  let t7 : T := (s * (ofR 2 : T) + (ofR m2 : T)) / (ofR m2 : T) * (ofR (thermal.j_0_i q beta) : T)
  let t8 : ℂ := toC (-(a * a / (ofR m2 : T) + (ofR (m2 * 8) : T))) * thermal.zero_momentum.d_i_m_m_l_i_same_mass q om m beta
  let t9 : ℂ := toC (b * b / (ofR m2 : T)) * thermal.zero_momentum.d_i_m_0_l_i q om m beta
  let t10 : ℂ := toC (-s * (ofR 2 : T) * (s + (ofR (m2 * 4) : T))) * thermal.zero_momentum.d_i_m_m_i_same_mass q om m beta
  let t11 : ℂ := toC (b * b) * thermal.zero_momentum.d_i_m_0_i q om m beta
  let t12 : T := (s + (ofR (m2 * 3) : T)) * (ofR (thermal.d_j_m_i q m beta) : T)
  let t13 : ℝ := -m4 * thermal.d2_j_m_i q m beta
  let t14 : ℝ := (j_m_l_p_i - j_0_l_p_i) / m2
  let t15 : ℝ := -d_j_m_l_p_i + d2_j_m_l_p_i * m2 / 2
  toC (t12 + (ofR (t14 + t15 + t13) : T)) + (toC t7 + (toC t6 + t1)) + t2 + t3 + t4 + t5 + t8 + t9 + t10 + t11

/-- low_level/oneloop/thermal/gluon.rs l.1378-1380. -/
noncomputable def polarization_glue_t_thermal_part_landau_i {T : Type} [Num T] (q : ℝ) (om : T) (m : ℝ) (beta : ℝ) : ℂ :=
  polarization_glue_l_thermal_part_landau_i q om m beta

/-- low_level/oneloop/thermal/gluon.rs l.1383-1399. -/
noncomputable def polarization_quark_l_thermal_part_landau_i {T : Type} [Num T] (k : Consts ℝ) (q : ℝ) (om : T) (mq : ℝ) (beta : ℝ) (mu : ℝ) : T :=
  let en : ℝ := energy q mq
  let en2 : ℝ := en * en
  let q2 : ℝ := q * q;
  ((om * om + (ofR (4 * en2) : T)) * (ofR en : T) * (ofR 3 : T) * (ofR PI2 : T) * (ofR (k.nc : ℝ) : T))⁻¹ * (ofR 2 : T) * (ofR (fermi_distribution_double en beta mu) : T) * (ofR q2 : T) * (ofR (3 * -en2 + q2) : T)

/-- low_level/oneloop/thermal/gluon.rs l.1402-1410. -/
noncomputable def polarization_quark_t_thermal_part_landau_i {T : Type} [Num T] (k : Consts ℝ) (q : ℝ) (om : T) (mq : ℝ) (beta : ℝ) (mu : ℝ) : T :=
  polarization_quark_l_thermal_part_landau_i k q om mq beta mu

/-- low_level/oneloop/thermal/gluon.rs l.1413-1428. -/
noncomputable def polarization_quark_l_thermal_part_zero_temp_landau_i {T : Type} [Num T] (k : Consts ℝ) (q : ℝ) (om : T) (mq : ℝ) (mu : ℝ) : T :=
  let en : ℝ := energy q mq
  let en2 : ℝ := en * en
  let q2 : ℝ := q * q;
  ((om * om + (ofR (4 * en2) : T)) * (ofR en : T) * (ofR 3 : T) * (ofR PI2 : T) * (ofR (k.nc : ℝ) : T))⁻¹ * (ofR 2 : T) * (ofR (fermi_distribution_double_zero_temp en mu) : T) * (ofR q2 : T) * (ofR (3 * -en2 + q2) : T)

/-- low_level/oneloop/thermal/gluon.rs l.1431-1438. -/
noncomputable def polarization_quark_t_thermal_part_zero_temp_landau_i {T : Type} [Num T] (k : Consts ℝ) (q : ℝ) (om : T) (mq : ℝ) (mu : ℝ) : T :=
  polarization_quark_l_thermal_part_zero_temp_landau_i k q om mq mu

end zero_momentum

end gluon.thermal

end Qcd
