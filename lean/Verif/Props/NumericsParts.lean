import Verif.Props.Numerics
import Verif.Props.ZeroMatsubaraLimit

/-! # C105, continued: self-energies and polarizations against the reference program -/

namespace Qcd
open Complex
open consts (Consts)
variable {T T1 T2 T3 T4 : Type} [Num T] [Num T1] [Num T2] [Num T3] [Num T4]

section special
variable (q : ℝ) (om : ℂ) (p : ℝ) (m beta : ℝ) (hq : 0 < q)
include hq

theorem num_tad_m : ((thermal.j_m_i q m beta : ℝ) : ℂ) = numerics.j_m_i q m beta ∧
    ((thermal.j_m_l_i q m beta : ℝ) : ℂ) = numerics.j_m_l_i q m beta ∧
    ((thermal.j_m_t_i q m beta : ℝ) : ℂ) = numerics.j_m_t_i q m beta ∧
    ((thermal.d_j_m_i q m beta : ℝ) : ℂ) = numerics.d_j_m_i q m beta ∧
    ((thermal.d_j_m_l_i q m beta : ℝ) : ℂ) = numerics.d_j_m_l_i q m beta ∧
    ((thermal.d_j_m_t_i q m beta : ℝ) : ℂ) = numerics.d_j_m_t_i q m beta ∧
    ((thermal.d2_j_m_i q m beta : ℝ) : ℂ) = numerics.d2_j_m_i q m beta ∧
    ((thermal.d2_j_m_l_i q m beta : ℝ) : ℂ) = numerics.d2_j_m_l_i q m beta ∧
    ((thermal.d2_j_m_t_i q m beta : ℝ) : ℂ) = numerics.d2_j_m_t_i q m beta := by
  have he : energy q m ≠ 0 := by
    have : 0 < energy q m := by
      simp only [energy, energy_squared, sqrt_real, ofR_real]
      exact Real.sqrt_pos.2 (by nlinarith [mul_self_nonneg m, mul_pos hq hq])
    exact this.ne'
  exact C105_tadpoles q m beta he

theorem num_tad_0 : ((thermal.j_0_i q beta : ℝ) : ℂ) = numerics.j_m_i q 0 beta ∧
    ((thermal.j_0_l_i q beta : ℝ) : ℂ) = numerics.j_m_l_i q 0 beta ∧
    ((thermal.j_0_t_i q beta : ℝ) : ℂ) = numerics.j_m_t_i q 0 beta := by
  have h := num_tad_m q 0 beta hq
  have h' := C35_thermal_tadpoles (T := ℝ) q beta hq
  simp only [ofR_real] at h'
  rw [h'.1, h'.2.1, h'.2.2.1] at h
  simpa only [ofReal_zero] using ⟨h.1, h.2.1, h.2.2.1⟩

theorem num_zp_special :
    thermal.zero_momentum.i_m_0_i q om m beta = numerics.i_m_m_i_zp q om m 0 beta ∧
    thermal.zero_momentum.i_m_0_l_i q om m beta = numerics.i_m_m_l_i_zp q om m 0 beta ∧
    thermal.zero_momentum.d_i_m_0_i q om m beta = numerics.d_i_m_m_i_zp q om m 0 beta ∧
    thermal.zero_momentum.d_i_m_0_l_i q om m beta = numerics.d_i_m_m_l_i_zp q om m 0 beta ∧
    thermal.zero_momentum.i_0_0_i q om beta = numerics.i_m_m_i_zp q om 0 0 beta ∧
    thermal.zero_momentum.i_0_0_l_i q om beta = numerics.i_m_m_l_i_zp q om 0 0 beta ∧
    thermal.zero_momentum.i_m_m_i_same_mass q om m beta = numerics.i_m_m_i_zp q om m m beta ∧
    thermal.zero_momentum.i_m_m_l_i_same_mass q om m beta = numerics.i_m_m_l_i_zp q om m m beta ∧
    thermal.zero_momentum.d_i_m_m_i_same_mass q om m beta = numerics.d_i_m_m_i_zp q om m m beta ∧
    thermal.zero_momentum.d_i_m_m_l_i_same_mass q om m beta = numerics.d_i_m_m_l_i_zp q om m m beta := by
  obtain ⟨a1, a2, _, a4, a5, _⟩ := C35_thermal_zero_momentum_second_mass_zero (T1 := ℂ) (T2 := ℝ) (T3 := ℝ)
  obtain ⟨b1, b2, _, _, _, _⟩ := C35_thermal_zero_momentum_zero_mass (T1 := ℂ) (T2 := ℝ)
  obtain ⟨c1, c2, _, c4, c5, _⟩ := C35_thermal_zero_momentum_same_mass (T1 := ℂ) (T2 := ℝ)
  obtain ⟨d1, d2, _, d4, d5, _⟩ := C105_zero_momentum q om m (0 : ℝ) beta
  obtain ⟨e1, e2, _, _, _, _⟩ := C105_zero_momentum q om (0 : ℝ) (0 : ℝ) beta
  obtain ⟨f1, f2, _, f4, f5, _⟩ := C105_zero_momentum q om m m beta
  rw [a1 q om m beta hq] at d1
  rw [a2 q om m beta hq] at d2
  rw [a4 q om m beta hq] at d4
  rw [a5 q om m beta hq] at d5
  rw [a1 q om 0 beta hq, b1 q om beta hq] at e1
  rw [a2 q om 0 beta hq, b2 q om beta hq] at e2
  rw [c1] at f1; rw [c2] at f2; rw [c4] at f4; rw [c5] at f5
  simp only [toC_real, toC_complex, ofReal_zero] at d1 d2 d4 d5 e1 e2 f1 f2 f4 f5
  exact ⟨d1, d2, d4, d5, e1, e2, f1, f2, f4, f5⟩

theorem num_special (hp : p ≠ 0) :
    thermal.i_m_0_i q om p m beta = numerics.i_m_m_i q om p m 0 beta ∧
    thermal.i_m_0_t_i q om p m beta = numerics.i_m_m_t_i q om p m 0 beta ∧
    thermal.d_i_m_0_i q om p m beta = numerics.d_i_m_m_i q om p m 0 beta ∧
    thermal.d_i_m_0_t_i q om p m beta = numerics.d_i_m_m_t_i q om p m 0 beta ∧
    thermal.i_0_0_i q om p beta = numerics.i_m_m_i q om p 0 0 beta ∧
    thermal.i_0_0_t_i q om p beta = numerics.i_m_m_t_i q om p 0 0 beta ∧
    thermal.i_m_m_i_same_mass q om p m beta = numerics.i_m_m_i q om p m m beta ∧
    thermal.i_m_m_t_i_same_mass q om p m beta = numerics.i_m_m_t_i q om p m m beta ∧
    thermal.d_i_m_m_i_same_mass q om p m beta = numerics.d_i_m_m_i q om p m m beta ∧
    thermal.d_i_m_m_t_i_same_mass q om p m beta = numerics.d_i_m_m_t_i q om p m m beta := by
  obtain ⟨eps, he⟩ : ∃ eps : ℝ, om + ofR eps ≠ 0 := by
    by_cases h : om = 0
    · exact ⟨1, by simp [h]⟩
    · exact ⟨0, by simpa using h⟩
  obtain ⟨a1, _, a3, a4, _, a6⟩ := C35_thermal_second_mass_zero (T1 := ℂ) (T2 := ℝ) (T3 := ℝ)
  obtain ⟨b1, _, b3, _, _, _⟩ := C35_thermal_zero_mass (T1 := ℂ) (T2 := ℝ)
  obtain ⟨c1, _, c3, c4, _, c6⟩ := C35_thermal_same_mass (T1 := ℂ) (T2 := ℝ)
  obtain ⟨d1, _, d3⟩ := C105_integrals eps q om p m (0 : ℝ) beta hp he
  obtain ⟨e1, _, e3⟩ := C105_integrals eps q om p (0 : ℝ) (0 : ℝ) beta hp he
  obtain ⟨f1, _, f3⟩ := C105_integrals eps q om p m m beta hp he
  obtain ⟨d4, d6⟩ := C105_integrals_derivative eps q om p m (0 : ℝ) beta hp
  obtain ⟨f4, f6⟩ := C105_integrals_derivative eps q om p m m beta hp
  rw [a1 q om p m beta hq] at d1
  rw [a3 q om p m beta hq] at d3
  rw [a4 q om p m beta hq] at d4
  rw [a6 q om p m beta hq] at d6
  rw [a1 q om p 0 beta hq, b1 q om p beta hq] at e1
  rw [a3 q om p 0 beta hq, b3 q om p beta hq] at e3
  rw [c1] at f1; rw [c3] at f3; rw [c4] at f4; rw [c6] at f6
  simp only [toC_real, toC_complex, ofReal_zero] at d1 d3 d4 d6 e1 e3 f1 f3 f4 f6
  exact ⟨d1, d3, d4, d6, e1, e3, f1, f3, f4, f6⟩

theorem num_special_l (hp : p ≠ 0) (ho : om ≠ 0) :
    thermal.i_m_0_l_i q om p m beta = numerics.i_m_m_l_i 0 q om p m 0 beta ∧
    thermal.d_i_m_0_l_i q om p m beta = numerics.d_i_m_m_l_i 0 q om p m 0 beta ∧
    thermal.i_0_0_l_i q om p beta = numerics.i_m_m_l_i 0 q om p 0 0 beta ∧
    thermal.i_m_m_l_i_same_mass q om p m beta = numerics.i_m_m_l_i 0 q om p m m beta ∧
    thermal.d_i_m_m_l_i_same_mass q om p m beta = numerics.d_i_m_m_l_i 0 q om p m m beta := by
  have he : om + ofR 0 ≠ 0 := by simpa using ho
  have h0 : om + ofR 0 = om := by simp
  obtain ⟨_, a2, _, _, a5, _⟩ := C35_thermal_second_mass_zero (T1 := ℂ) (T2 := ℝ) (T3 := ℝ)
  obtain ⟨_, b2, _, _, _, _⟩ := C35_thermal_zero_mass (T1 := ℂ) (T2 := ℝ)
  obtain ⟨_, c2, _, _, c5, _⟩ := C35_thermal_same_mass (T1 := ℂ) (T2 := ℝ)
  obtain ⟨_, d2, _⟩ := C105_integrals 0 q om p m (0 : ℝ) beta hp he
  obtain ⟨_, e2, _⟩ := C105_integrals 0 q om p (0 : ℝ) (0 : ℝ) beta hp he
  obtain ⟨_, f2, _⟩ := C105_integrals 0 q om p m m beta hp he
  have d5 := C105_integrals_derivative_l 0 q om p m (0 : ℝ) beta hp he
  have f5 := C105_integrals_derivative_l 0 q om p m m beta hp he
  rw [h0] at d2 e2 f2 d5 f5
  rw [a2 q om p m beta hq] at d2
  rw [a5 q om p m beta hq] at d5
  rw [a2 q om p 0 beta hq, b2 q om p beta hq] at e2
  rw [c2] at f2; rw [c5] at f5
  simp only [toC_real, toC_complex, ofReal_zero] at d2 d5 e2 f2 f5
  exact ⟨d2, d5, e2, f2, f5⟩

end special

/-- **C105** (ghost self-energy): the thermal part of the ghost self-energy equals the reference
formula, at generic and at zero momentum. -/
theorem C105_ghost (q : ℝ) (om : T) (p m beta : ℝ) (hq : 0 < q) :
    (p ≠ 0 → ghost.thermal.self_energy_thermal_part_landau_i q om p m beta
      = numerics.ghost_se q (toC om) p m beta) ∧
    ghost.thermal.zero_momentum.self_energy_thermal_part_landau_i q om m beta
      = numerics.ghost_se_zp q (toC om) m beta := by
  obtain ⟨j1, -, -, j4, -, -, -, -, -⟩ := num_tad_m q m beta hq
  obtain ⟨z1, -, -⟩ := num_tad_0 q beta hq
  refine ⟨fun hp => ?_, ?_⟩
  · rw [toC_ghost_thermal_self_energy_thermal_part_landau_i]
    obtain ⟨a1, -, a3, -, a5, -⟩ := num_special q (toC om) p m beta hq hp
    simp only [ghost.thermal.self_energy_thermal_part_landau_i, numerics.ghost_se, a1, a3, a5,
      toC_complex, ofR_complex]
    push_cast
    simp only [j1, j4, z1]
    ring
  · rw [toC_ghost_thermal_zero_momentum_self_energy_thermal_part_landau_i]
    obtain ⟨a1, -, a3, -, a5, -⟩ := num_zp_special q (toC om) m beta hq
    simp only [ghost.thermal.zero_momentum.self_energy_thermal_part_landau_i, numerics.ghost_se_zp, a1, a3,
      a5, toC_complex, ofR_complex]
    push_cast
    simp only [j1, j4, z1]
    ring

/-- **C105** (gluon polarization, glue): the longitudinal and transverse thermal parts equal the
reference formulas; the longitudinal one at nonzero frequency, where the reference program needs no
shift. -/
theorem C105_glue (q : ℝ) (om : T) (p m beta : ℝ) (hq : 0 < q) (hp : p ≠ 0) :
    (om ≠ 0 → gluon.thermal.polarization_glue_l_thermal_part_landau_i q om p m beta
      = numerics.gluon_pol_l 0 q (toC om) p m beta) ∧
    gluon.thermal.polarization_glue_t_thermal_part_landau_i q om p m beta
      = numerics.gluon_pol_t q (toC om) p m beta := by
  obtain ⟨j1, j2, j3, j4, j5, j6, j7, j8, j9⟩ := num_tad_m q m beta hq
  obtain ⟨z1, z2, z3⟩ := num_tad_0 q beta hq
  obtain ⟨a1, a2, a3, a4, a5, a6, a7, a8, a9, a10⟩ := num_special q (toC om) p m beta hq hp
  refine ⟨fun ho => ?_, ?_⟩
  · have ho : toC om ≠ 0 := fun h => ho (toC_injective (by rw [h, toC_zero]))
    obtain ⟨b1, b2, b3, b4, b5⟩ := num_special_l q (toC om) p m beta hq hp ho
    have e : gluon.thermal.polarization_glue_l_thermal_part_landau_i q om p m beta
        = gluon.thermal.polarization_glue_l_thermal_part_landau_i q (toC om) p m beta := by
      rw [toC_gluon_thermal_polarization_glue_l_thermal_part_landau_i q om p,
        toC_gluon_thermal_polarization_glue_l_thermal_part_landau_i q (toC om) p, toC_complex]
    rw [e]
    simp only [gluon.thermal.polarization_glue_l_thermal_part_landau_i, numerics.gluon_pol_l, a1, a3,
      a7, a9, b1, b2, b3, b4, b5, numerics.j_m_l_p_i, numerics.d_j_m_l_p_i, numerics.d2_j_m_l_p_i,
      toC_complex, toC_real, ofR_complex, ofR_real]
    push_cast
    simp only [j1, j2, j3, j4, j5, j6, j7, j8, j9, z1, z2, z3]
    ring
  · rw [toC_gluon_thermal_polarization_glue_t_thermal_part_landau_i]
    simp only [gluon.thermal.polarization_glue_t_thermal_part_landau_i, numerics.gluon_pol_t, a1, a2, a3, a4,
      a5, a6, a7, a8, a9, a10, toC_complex, ofR_complex]
    push_cast
    simp only [j1, j3, j4, j6, j7, j9, z1, z3]
    ring

/-- **C105** (gluon polarization at zero momentum, glue). -/
theorem C105_glue_zero_momentum (q : ℝ) (om : T) (m beta : ℝ) (hq : 0 < q) :
    gluon.thermal.zero_momentum.polarization_glue_l_thermal_part_landau_i q om m beta
      = numerics.gluon_pol_l_zp q (toC om) m beta ∧
    gluon.thermal.zero_momentum.polarization_glue_t_thermal_part_landau_i q om m beta
      = numerics.gluon_pol_t_zp q (toC om) m beta := by
  have h : gluon.thermal.zero_momentum.polarization_glue_l_thermal_part_landau_i q om m beta
      = numerics.gluon_pol_l_zp q (toC om) m beta := by
    obtain ⟨j1, -, j3, j4, -, j6, j7, -, j9⟩ := num_tad_m q m beta hq
    obtain ⟨z1, -, z3⟩ := num_tad_0 q beta hq
    obtain ⟨a1, a2, a3, a4, a5, a6, a7, a8, a9, a10⟩ := num_zp_special q (toC om) m beta hq
    rw [toC_gluon_thermal_zero_momentum_polarization_glue_l_thermal_part_landau_i]
    simp only [gluon.thermal.zero_momentum.polarization_glue_l_thermal_part_landau_i,
      numerics.gluon_pol_l_zp, numerics.j_m_l_p_i_zp, numerics.d_j_m_l_p_i_zp, numerics.d2_j_m_l_p_i_zp,
      a1, a2, a3, a4, a5, a6, a7, a8, a9, a10, toC_complex, ofR_complex]
    push_cast
    simp only [j1, j3, j4, j6, j7, j9, z1, z3]
    ring
  exact ⟨h, h⟩

theorem num_fermi_double (q m beta mu : ℝ) :
    ((fermi_distribution_double (energy q m) beta mu : ℝ) : ℂ) = numerics.fermi_double q m beta mu := by
  have he : ((energy q m : ℝ) : ℂ) = energy q (m : ℂ) := toC_energy (T := ℝ) q m
  simp only [fermi_distribution_double, statistic_distribution_exponential, numerics.fermi_double,
    numerics.fermi, num_en, ← he, exp_real, ofR_real]
  have hu : ∀ x : ℝ, (up x : ℝ) = x := fun _ => rfl
  push_cast
  simp only [one_div, hu, mul_comm (beta : ℂ)]
  push_cast
  rfl

/-- **C105** (gluon polarization, quarks): with three colors the longitudinal and transverse quark
contributions equal the reference formulas, at every chemical potential, at generic and at zero
momentum. -/
theorem C105_quark (k : Consts ℝ) (hk : k.nc = 3) (q : ℝ) (om : T) (p mq beta mu : ℝ) (hq : 0 < q) :
    (p ≠ 0 → gluon.thermal.polarization_quark_l_thermal_part_landau_i k q om p mq beta mu
      = numerics.gluon_pol_quark_l q (toC om) p mq beta mu ∧
    gluon.thermal.polarization_quark_t_thermal_part_landau_i k q om p mq beta mu
      = numerics.gluon_pol_quark_t q (toC om) p mq beta mu) ∧
    toC (gluon.thermal.zero_momentum.polarization_quark_l_thermal_part_landau_i k q om mq beta mu)
      = numerics.gluon_pol_quark_l_zp q (toC om) mq beta mu := by
  have he : ((energy q mq : ℝ) : ℂ) = energy q (mq : ℂ) := toC_energy (T := ℝ) q mq
  have hpi : (Real.pi : ℂ) ≠ 0 := Complex.ofReal_ne_zero.2 Real.pi_ne_zero
  have hq' : (q : ℂ) ≠ 0 := Complex.ofReal_ne_zero.2 hq.ne'
  have hf := num_fermi_double q mq beta mu
  have hsq := num_energy_sq q (mq : ℂ)
  have he0 : energy q (mq : ℂ) ≠ 0 := by
    intro h; rw [h] at hsq
    have : (q : ℝ) ^ 2 + mq ^ 2 = 0 := by exact_mod_cast (by simpa using hsq.symm : (q : ℂ) ^ 2 + (mq : ℂ) ^ 2 = 0)
    nlinarith [sq_nonneg mq, pow_pos hq 2]
  refine ⟨fun hp => ?_, ?_⟩
  · have hp' : (p : ℂ) ≠ 0 := Complex.ofReal_ne_zero.2 hp
    refine ⟨?_, ?_⟩
    · rw [toC_gluon_thermal_polarization_quark_l_thermal_part_landau_i]
      simp only [gluon.thermal.polarization_quark_l_thermal_part_landau_i, numerics.gluon_pol_quark_l,
        tlog_same_mass_eq, num_tlog, num_en, hk, toC_complex, toC_real, ofR_complex, ofR_real, numerics.pi]
      push_cast
      simp only [hf, he, PI2_cast]
      generalize energy q (mq : ℂ) = E at *
      field_simp
      ring
    · rw [toC_gluon_thermal_polarization_quark_t_thermal_part_landau_i]
      simp only [gluon.thermal.polarization_quark_t_thermal_part_landau_i, numerics.gluon_pol_quark_t,
        numerics.gluon_pol_quark_l, numerics.gluon_pol_quark_trace,
        tlog_same_mass_eq, num_tlog, num_en, hk, toC_complex, toC_real, ofR_complex, ofR_real, numerics.pi]
      push_cast
      simp only [hf, he, PI2_cast]
      generalize energy q (mq : ℂ) = E at *
      field_simp
      linear_combination (-48 * numerics.fermi_double q mq beta mu * p ^ 2
        * (TL q (toC om) p E 0 + TL q (-toC om) p E 0)) * hsq
  · rw [toC_gluon_thermal_zero_momentum_polarization_quark_l_thermal_part_landau_i]
    simp only [gluon.thermal.zero_momentum.polarization_quark_l_thermal_part_landau_i,
      numerics.gluon_pol_quark_l_zp, num_en, hk, toC_complex, ofR_complex, numerics.pi]
    push_cast
    simp only [hf, he, PI2_cast, mul_inv]
    ring_nf

/-! The premises hold: a configuration of the unit tests. -/
example : gluon.thermal.polarization_glue_l_thermal_part_landau_i 0.62 (0.21 : ℝ) (2.16 : ℝ) 1.2 3.2
    = numerics.gluon_pol_l 0 0.62 (toC (0.21 : ℝ)) 2.16 (1.2 : ℝ) 3.2 :=
  (C105_glue 0.62 (0.21 : ℝ) 2.16 1.2 3.2 (by norm_num) (by norm_num)).1 (by norm_num)

example (m : ℝ) : thermal.i_m_m_l_i 0.62 ((0.21 : ℝ) + ofR (1 / 10 ^ 16)) (2.16 : ℝ) m (3 + 2 * Complex.I) 3.2
    = numerics.i_m_m_l_i (1 / 10 ^ 16) 0.62 (toC (0.21 : ℝ)) 2.16 (toC m) (toC (3 + 2 * Complex.I)) 3.2 :=
  (C105_integrals (1 / 10 ^ 16) 0.62 (0.21 : ℝ) 2.16 m (3 + 2 * Complex.I) 3.2 (by norm_num)
    (by simp only [ofR_real]; positivity)).2.1

example (om : ℂ) : gluon.thermal.polarization_quark_t_thermal_part_landau_i (consts.init : Consts ℝ) 0.62 om 2.16 0.4 3.2 0.8
    = numerics.gluon_pol_quark_t 0.62 om 2.16 (0.4 : ℝ) 3.2 0.8 :=
  ((C105_quark consts.init rfl 0.62 om 2.16 0.4 3.2 0.8 (by norm_num)).1 (by norm_num)).2

open Filter Topology in
/-- **C105** (zero frequency): at zero frequency the reference program evaluates the longitudinal
integrands at a small frequency instead. As that frequency goes to zero its values tend to those of
the library's functions for zero frequency. -/
theorem C105_zero_frequency {q p m1 m2 : ℝ} (hq : 0 < q) (beta : ℝ)
    (h : Spec.StaticRegular q p (m2 * m2 - m1 * m1)) :
    Tendsto (fun eps : ℝ => numerics.i_m_m_l_i eps q 0 p m1 m2 beta) (𝓝[≠] 0)
      (𝓝 (thermal.zero_matsubara.i_m_m_l_i q p m1 m2 beta)) ∧
    Tendsto (fun eps : ℝ => numerics.d_i_m_m_l_i eps q 0 p m1 m2 beta) (𝓝[≠] 0)
      (𝓝 (thermal.zero_matsubara.d_i_m_m_l_i q p m1 m2 beta)) := by
  constructor
  · refine (C41_i_m_m_l_i hq beta h).congr' ?_
    filter_upwards [self_mem_nhdsWithin] with eps he
    have := (C105_integrals eps q (0 : ℝ) p m1 m2 beta h.momentum (by simpa using he)).2.1
    simpa using this
  · refine (C41_d_i_m_m_l_i hq beta h).congr' ?_
    filter_upwards [self_mem_nhdsWithin] with eps he
    have := C105_integrals_derivative_l eps q (0 : ℝ) p m1 m2 beta h.momentum (by simpa using he)
    simpa using this

example : Spec.StaticRegular 0.62 2.16 (1.2 * 1.2 - 0.3 * 0.3) := by
  constructor <;> norm_num

end Qcd
