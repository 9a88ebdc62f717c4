import Verif.Props.ZeroMatsubaraLimit
import Verif.Model.ThermalParts

/-! # C41 for equal and vanishing masses, for the thermal part of the ghost self-energy and of the gluon polarization -/

set_option linter.unusedSimpArgs false
set_option linter.unusedVariables false

namespace Qcd
open Filter Topology
open consts (Consts)

section
variable {q p m : ℝ}

/-- **C41**: loops of equal masses. -/
theorem C41_same_mass (hq : 0 < q) (beta : ℝ) (h : Spec.StaticRegular q p 0) :
    Tendsto (fun om : ℝ => thermal.i_m_m_i_same_mass q om p m beta) (𝓝[≠] 0) (𝓝 (((thermal.zero_matsubara.i_m_m_i_same_mass q p m beta : ℝ) : ℂ))) ∧
    Tendsto (fun om : ℝ => thermal.i_m_m_l_i_same_mass q om p m beta) (𝓝[≠] 0) (𝓝 (((thermal.zero_matsubara.i_m_m_l_i_same_mass q p m beta : ℝ) : ℂ))) ∧
    Tendsto (fun om : ℝ => thermal.i_m_m_t_i_same_mass q om p m beta) (𝓝[≠] 0) (𝓝 (((thermal.zero_matsubara.i_m_m_t_i_same_mass q p m beta : ℝ) : ℂ))) ∧
    Tendsto (fun om : ℝ => thermal.d_i_m_m_i_same_mass q om p m beta) (𝓝[≠] 0) (𝓝 (((thermal.zero_matsubara.d_i_m_m_i_same_mass q p m beta : ℝ) : ℂ))) ∧
    Tendsto (fun om : ℝ => thermal.d_i_m_m_l_i_same_mass q om p m beta) (𝓝[≠] 0) (𝓝 (((thermal.zero_matsubara.d_i_m_m_l_i_same_mass q p m beta : ℝ) : ℂ))) ∧
    Tendsto (fun om : ℝ => thermal.d_i_m_m_t_i_same_mass q om p m beta) (𝓝[≠] 0) (𝓝 (((thermal.zero_matsubara.d_i_m_m_t_i_same_mass q p m beta : ℝ) : ℂ))) := by
  have h' : Spec.StaticRegular q p (m * m - m * m) := by rwa [sub_self]
  obtain ⟨a1, a2, a3, a4, a5, a6⟩ := C35_thermal_same_mass (T1 := ℝ) (T2 := ℝ)
  obtain ⟨b1, b2, b3, b4, b5, b6⟩ := C35_thermal_zero_matsubara_same_mass (T2 := ℝ)
  refine ⟨?_, ?_, ?_, ?_, ?_, ?_⟩
  · simpa only [a1, b1, toC_real] using C41_i_m_m_i hq beta h'
  · simpa only [a2, b2, toC_real] using C41_i_m_m_l_i hq beta h'
  · simpa only [a3, b3, toC_real] using C41_i_m_m_t_i hq beta h'
  · simpa only [a4, b4, toC_real] using C41_d_i_m_m_i hq beta h'
  · simpa only [a5, b5, toC_real] using C41_d_i_m_m_l_i hq beta h'
  · simpa only [a6, b6, toC_real] using C41_d_i_m_m_t_i hq beta h'

/-- **C41**: loops of one massive and one massless propagator. -/
theorem C41_second_mass_zero (hq : 0 < q) (beta : ℝ) (h : Spec.StaticRegular q p (-(m * m))) :
    Tendsto (fun om : ℝ => thermal.i_m_0_i q om p m beta) (𝓝[≠] 0) (𝓝 (thermal.zero_matsubara.i_m_0_i q p m beta)) ∧
    Tendsto (fun om : ℝ => thermal.i_m_0_l_i q om p m beta) (𝓝[≠] 0) (𝓝 (thermal.zero_matsubara.i_m_0_l_i q p m beta)) ∧
    Tendsto (fun om : ℝ => thermal.i_m_0_t_i q om p m beta) (𝓝[≠] 0) (𝓝 (thermal.zero_matsubara.i_m_0_t_i q p m beta)) ∧
    Tendsto (fun om : ℝ => thermal.d_i_m_0_i q om p m beta) (𝓝[≠] 0) (𝓝 (((thermal.zero_matsubara.d_i_m_0_i q p m beta : ℝ) : ℂ))) ∧
    Tendsto (fun om : ℝ => thermal.d_i_m_0_l_i q om p m beta) (𝓝[≠] 0) (𝓝 (((thermal.zero_matsubara.d_i_m_0_l_i q p m beta : ℝ) : ℂ))) ∧
    Tendsto (fun om : ℝ => thermal.d_i_m_0_t_i q om p m beta) (𝓝[≠] 0) (𝓝 (thermal.zero_matsubara.d_i_m_0_t_i q p m beta)) := by
  have h' : Spec.StaticRegular q p ((0 : ℝ) * 0 - m * m) := by rwa [mul_zero, zero_sub]
  obtain ⟨a1, a2, a3, a4, a5, a6⟩ := C35_thermal_second_mass_zero (T1 := ℝ) (T2 := ℝ) (T3 := ℝ)
  obtain ⟨b1, b2, b3, b4, b5, b6⟩ := C35_thermal_zero_matsubara_second_mass_zero (T2 := ℝ) (T3 := ℝ)
  refine ⟨?_, ?_, ?_, ?_, ?_, ?_⟩
  · simpa only [a1 _ _ _ _ _ hq, b1 _ _ _ _ hq, toC_real] using C41_i_m_m_i hq beta h'
  · simpa only [a2 _ _ _ _ _ hq, b2 _ _ _ _ hq, toC_real] using C41_i_m_m_l_i hq beta h'
  · simpa only [a3 _ _ _ _ _ hq, b3 _ _ _ _ hq, toC_real] using C41_i_m_m_t_i hq beta h'
  · simpa only [a4 _ _ _ _ _ hq, b4 _ _ _ _ hq, toC_real] using C41_d_i_m_m_i hq beta h'
  · simpa only [a5 _ _ _ _ _ hq, b5 _ _ _ _ hq, toC_real] using C41_d_i_m_m_l_i hq beta h'
  · simpa only [a6 _ _ _ _ _ hq, b6 _ _ _ _ hq, toC_real] using C41_d_i_m_m_t_i hq beta h'

/-- **C41**: massless loops. -/
theorem C41_zero_mass (hq : 0 < q) (beta : ℝ) (h : Spec.StaticRegular q p 0) :
    Tendsto (fun om : ℝ => thermal.i_0_0_i q om p beta) (𝓝[≠] 0) (𝓝 (((thermal.zero_matsubara.i_0_0_i q p beta : ℝ) : ℂ))) ∧
    Tendsto (fun om : ℝ => thermal.i_0_0_l_i q om p beta) (𝓝[≠] 0) (𝓝 (((thermal.zero_matsubara.i_0_0_l_i q p beta : ℝ) : ℂ))) ∧
    Tendsto (fun om : ℝ => thermal.i_0_0_t_i q om p beta) (𝓝[≠] 0) (𝓝 (((thermal.zero_matsubara.i_0_0_t_i q p beta : ℝ) : ℂ))) ∧
    Tendsto (fun om : ℝ => thermal.d_i_0_0_i q om p beta) (𝓝[≠] 0) (𝓝 (((thermal.zero_matsubara.d_i_0_0_i q p beta : ℝ) : ℂ))) ∧
    Tendsto (fun om : ℝ => thermal.d_i_0_0_l_i q om p beta) (𝓝[≠] 0) (𝓝 (((thermal.zero_matsubara.d_i_0_0_l_i q p beta : ℝ) : ℂ))) ∧
    Tendsto (fun om : ℝ => thermal.d_i_0_0_t_i q om p beta) (𝓝[≠] 0) (𝓝 (((thermal.zero_matsubara.d_i_0_0_t_i q p beta : ℝ) : ℂ))) := by
  have h' : Spec.StaticRegular q p (-((0 : ℝ) * 0)) := by rwa [mul_zero, neg_zero]
  obtain ⟨a1, a2, a3, a4, a5, a6⟩ := C35_thermal_zero_mass (T1 := ℝ) (T2 := ℝ)
  obtain ⟨b1, b2, b3, b4, b5, b6⟩ := C35_thermal_zero_matsubara_zero_mass (T2 := ℝ)
  obtain ⟨c1, c2, c3, c4, c5, c6⟩ := C41_second_mass_zero (m := 0) hq beta h'
  simp only [toC_real] at b4 b5
  refine ⟨?_, ?_, ?_, ?_, ?_, ?_⟩
  · simpa only [a1 _ _ _ _ hq, b1 _ _ _ hq] using c1
  · simpa only [a2 _ _ _ _ hq, b2 _ _ _ hq] using c2
  · simpa only [a3 _ _ _ _ hq, b3 _ _ _ hq] using c3
  · simpa only [a4 _ _ _ _ hq, b4 _ _ _ hq] using c4
  · simpa only [a5 _ _ _ _ hq, b5 _ _ _ hq] using c5
  · simpa only [a6 _ _ _ _ hq, b6 _ _ _ hq] using c6

theorem s_static (p : ℝ) : Tendsto (fun om : ℝ => (om : ℂ) ^ 2 + (p : ℂ) ^ 2) (𝓝[≠] 0) (𝓝 ((p : ℂ) ^ 2)) := by
  simpa using (ofReal_tendsto_zero'.pow 2).add (tendsto_const_nhds (x := (p : ℂ) ^ 2))

theorem coef_static {C : ℂ → ℂ} (hC : Continuous C) (p : ℝ) :
    Tendsto (fun om : ℝ => C ((om : ℂ) ^ 2 + (p : ℂ) ^ 2)) (𝓝[≠] 0) (𝓝 (C ((p : ℂ) ^ 2))) := (hC.tendsto _).comp (s_static p)

/-- **C41**: the thermal part of the ghost self-energy. -/
theorem C41_ghost_self_energy (hq : 0 < q) (h : Spec.StaticRegular q p 0) (h' : Spec.StaticRegular q p (-(m * m))) (beta : ℝ) :
    Tendsto (fun om : ℝ => ghost.thermal.self_energy_thermal_part_landau_i q om p m beta) (𝓝[≠] 0)
      (𝓝 (ghost.thermal.zero_matsubara.self_energy_thermal_part_landau_i q p m beta)) := by
  obtain ⟨x1, x2, x3, x4, x5, x6⟩ := C41_second_mass_zero hq beta h'
  obtain ⟨y1, y2, y3, y4, y5, y6⟩ := C41_zero_mass hq beta h
  have c1 := coef_static (C := fun s => -(s + m ^ 2) * s / (2 * m ^ 2)) (by fun_prop) p
  have c2 := coef_static (C := fun s => s * s / (2 * m ^ 2)) (by fun_prop) p
  have c3 := coef_static (C := fun s => (s * 2 - m ^ 2) / (4 * m ^ 2) * (thermal.j_m_i q m beta - thermal.j_0_i q beta)
    - (s - m ^ 2) / 4 * thermal.d_j_m_i q m beta) (by fun_prop) p
  have c4 := coef_static (C := fun s => (s + m ^ 2) ^ 2 / 4) (by fun_prop) p
  refine limit_congr ((((c1.mul x1).add (c2.mul y1)).add c3).add (c4.mul x4)) (fun om => ?_) ?_
  · simp only [ghost.thermal.self_energy_thermal_part_landau_i, map_neg, toC_ofR, toC_real, ofR_real, ofR_complex]
    push_cast
    ring
  · simp only [ghost.thermal.zero_matsubara.self_energy_thermal_part_landau_i, map_neg, toC_ofR, toC_real, ofR_real, ofR_complex]
    push_cast
    ring

/-- **C41**: the thermal part of the longitudinal glue polarization. -/
theorem C41_glue_l (hq : 0 < q) (h : Spec.StaticRegular q p 0) (h' : Spec.StaticRegular q p (-(m * m))) (beta : ℝ) :
    Tendsto (fun om : ℝ => gluon.thermal.polarization_glue_l_thermal_part_landau_i q om p m beta) (𝓝[≠] 0)
      (𝓝 (gluon.thermal.zero_matsubara.polarization_glue_l_thermal_part_landau_i q p m beta)) := by
  obtain ⟨x1, x2, x3, x4, x5, x6⟩ := C41_second_mass_zero hq beta h'
  obtain ⟨y1, y2, y3, y4, y5, y6⟩ := C41_zero_mass hq beta h
  obtain ⟨z1, z2, z3, z4, z5, z6⟩ := C41_same_mass (m := m) hq beta h
  have hw0 : (p : ℂ) ≠ 0 := Complex.ofReal_ne_zero.2 h.momentum
  have c1 := coef_static (C := fun s => s ^ 2 * 3 / (m ^ 4 * 2) - 1) (by fun_prop) p
  have c2 := coef_static (C := fun s => (s ^ 2 * 3 + s * m ^ 2 * 8 + 4 * m ^ 4) / (2 * m ^ 4) + 4) (by fun_prop) p
  have c3 := coef_static (C := fun s => -(s ^ 2 * 3 + s * m ^ 2 * 4 + m ^ 4) / m ^ 4) (by fun_prop) p
  have c4 := coef_static (C := fun s => (s + m ^ 2 * 2) * s * 2 / m ^ 2) (by fun_prop) p
  have c5 := coef_static (C := fun s => -(s + m ^ 2) * s * 2 / m ^ 2) (by fun_prop) p
  have c6 := coef_static (C := fun s => -((s + m ^ 2 * 2) ^ 2 / m ^ 2 + m ^ 2 * 8)) (by fun_prop) p
  have c7 := coef_static (C := fun s => (s + m ^ 2) ^ 2 / m ^ 2) (by fun_prop) p
  have c8 := coef_static (C := fun s => -s * 2 * (s + m ^ 2 * 4)) (by fun_prop) p
  have c9 := coef_static (C := fun s => (s + m ^ 2) ^ 2) (by fun_prop) p
  have c10 := coef_static (C := fun s => -(s * 2 + m ^ 2 * 3) / m ^ 2 * thermal.j_m_i q m beta + (s * 2 + m ^ 2) / m ^ 2 * thermal.j_0_i q beta + (s + m ^ 2 * 3) * thermal.d_j_m_i q m beta - m ^ 4 * thermal.d2_j_m_i q m beta) (by fun_prop) p
  have j : ∀ X Y : ℂ, Tendsto (fun om : ℝ => ((om : ℂ) ^ 2 + (p : ℂ) ^ 2)⁻¹ * ((om : ℂ) ^ 2 * X + (p : ℂ) ^ 2 * Y)) (𝓝[≠] 0) (𝓝 Y) := by
    intro X Y
    have := ((s_static p).inv₀ (pow_ne_zero 2 hw0)).mul
      (((ofReal_tendsto_zero'.pow 2).mul_const X).add (tendsto_const_nhds (x := (p : ℂ) ^ 2 * Y)))
    refine limit_congr this (fun p => rfl) ?_
    field_simp
    simp
  have j1 := j (thermal.j_m_t_i q m beta : ℝ) (thermal.j_m_l_i q m beta : ℝ)
  have j2 := j (thermal.j_0_t_i q beta : ℝ) (thermal.j_0_l_i q beta : ℝ)
  have j3 := j (thermal.d_j_m_t_i q m beta : ℝ) (thermal.d_j_m_l_i q m beta : ℝ)
  have j4 := j (thermal.d2_j_m_t_i q m beta : ℝ) (thermal.d2_j_m_l_i q m beta : ℝ)
  have c11 := (((j1.sub j2).div_const ((m : ℂ) ^ 2)).sub j3).add ((j4.mul_const ((m : ℂ) ^ 2)).div_const 2)
  refine limit_congr ((((((((((c10.add (c1.mul y2)).add (c2.mul z2)).add (c3.mul x2)).add (c4.mul z1)).add (c5.mul x1)).add (c6.mul z5)).add (c7.mul x5)).add (c8.mul z4)).add (c9.mul x4)).add c11) (fun om => ?_) ?_
  · simp only [gluon.thermal.polarization_glue_l_thermal_part_landau_i, map_neg, toC_ofR, toC_real, ofR_real, ofR_complex]
    push_cast
    ring
  · simp only [gluon.thermal.zero_matsubara.polarization_glue_l_thermal_part_landau_i, map_neg, toC_ofR, toC_real, ofR_real, ofR_complex]
    push_cast
    ring

/-- **C41**: the thermal part of the transverse glue polarization. -/
theorem C41_glue_t (hq : 0 < q) (h : Spec.StaticRegular q p 0) (h' : Spec.StaticRegular q p (-(m * m))) (beta : ℝ) :
    Tendsto (fun om : ℝ => gluon.thermal.polarization_glue_t_thermal_part_landau_i q om p m beta) (𝓝[≠] 0)
      (𝓝 (gluon.thermal.zero_matsubara.polarization_glue_t_thermal_part_landau_i q p m beta)) := by
  obtain ⟨x1, x2, x3, x4, x5, x6⟩ := C41_second_mass_zero hq beta h'
  obtain ⟨y1, y2, y3, y4, y5, y6⟩ := C41_zero_mass hq beta h
  obtain ⟨z1, z2, z3, z4, z5, z6⟩ := C41_same_mass (m := m) hq beta h
  have hw0 : (p : ℂ) ≠ 0 := Complex.ofReal_ne_zero.2 h.momentum
  have c1 := coef_static (C := fun s => s ^ 2 * 3 / (m ^ 4 * 2) - 1) (by fun_prop) p
  have c2 := coef_static (C := fun s => (s ^ 2 * 3 + s * m ^ 2 * 8 + 4 * m ^ 4) / (2 * m ^ 4) + 4) (by fun_prop) p
  have c3 := coef_static (C := fun s => -(s ^ 2 * 3 + s * m ^ 2 * 4 + m ^ 4) / m ^ 4) (by fun_prop) p
  have c4 := coef_static (C := fun s => (s + m ^ 2 * 2) * s * 2 / m ^ 2) (by fun_prop) p
  have c5 := coef_static (C := fun s => -(s + m ^ 2) * s * 2 / m ^ 2) (by fun_prop) p
  have c6 := coef_static (C := fun s => -((s + m ^ 2 * 2) ^ 2 / m ^ 2 + m ^ 2 * 8)) (by fun_prop) p
  have c7 := coef_static (C := fun s => (s + m ^ 2) ^ 2 / m ^ 2) (by fun_prop) p
  have c8 := coef_static (C := fun s => -s * 2 * (s + m ^ 2 * 4)) (by fun_prop) p
  have c9 := coef_static (C := fun s => (s + m ^ 2) ^ 2) (by fun_prop) p
  have c10 := coef_static (C := fun s => -(s * 2 + m ^ 2 * 3) / m ^ 2 * thermal.j_m_i q m beta + (s * 2 + m ^ 2) / m ^ 2 * thermal.j_0_i q beta + (s + m ^ 2 * 3) * thermal.d_j_m_i q m beta - m ^ 4 * thermal.d2_j_m_i q m beta) (by fun_prop) p
  have c11 : Tendsto (fun _ : ℝ => ((((thermal.j_m_t_i q m beta - thermal.j_0_t_i q beta) / m ^ 2 - thermal.d_j_m_t_i q m beta
    + thermal.d2_j_m_t_i q m beta * m ^ 2 / 2 : ℝ)) : ℂ)) (𝓝[≠] 0) _ := tendsto_const_nhds
  refine limit_congr ((((((((((c10.add (c1.mul y3)).add (c2.mul z3)).add (c3.mul x3)).add (c4.mul z1)).add (c5.mul x1)).add (c6.mul z6)).add (c7.mul x6)).add (c8.mul z4)).add (c9.mul x4)).add c11) (fun om => ?_) ?_
  · simp only [gluon.thermal.polarization_glue_t_thermal_part_landau_i, map_neg, toC_ofR, toC_real, ofR_real, ofR_complex]
    push_cast
    ring
  · simp only [gluon.thermal.zero_matsubara.polarization_glue_t_thermal_part_landau_i, map_neg, toC_ofR, toC_real, ofR_real, ofR_complex]
    push_cast
    ring

theorem quark_static {E : ℝ} (hE : E ≠ 0) (h : Spec.StaticRegular q p 0) {f C K : ℝ → ℂ} {v : ℂ} (hC : ContinuousAt C 0) (hK : ContinuousAt K 0)
    (hf : ∀ om : ℝ, f om = (C om * TL q om p E 0 + C (-om) * TL q (-(om : ℂ)) p E 0) + K om)
    (hv : v = 2 * C 0 * ZL q p 0 + K 0) : Tendsto f (𝓝[≠] 0) (𝓝 v) := by
  have l1 := leg_static (d := 0) hE (by simpa using h.first_plus) (by simpa using h.first_minus) hC
  have l3 := hK.tendsto.mono_left (nhdsWithin_le_nhds (s := {0}ᶜ))
  simp only [Complex.ofReal_zero] at l1
  exact limit_congr (l1.add l3) hf hv

/-- **C41**: the longitudinal quark polarization. -/
theorem C41_quark_l (k : Consts ℝ) (hq : 0 < q) (h : Spec.StaticRegular q p 0) (mq beta mu : ℝ) :
    Tendsto (fun om : ℝ => gluon.thermal.polarization_quark_l_thermal_part_landau_i k q om p mq beta mu) (𝓝[≠] 0)
      (𝓝 (gluon.thermal.zero_matsubara.polarization_quark_l_thermal_part_landau_i k q p mq beta mu : ℝ)) := by
  have hp : (p : ℂ) ≠ 0 := Complex.ofReal_ne_zero.2 h.momentum
  have hq0 : (q : ℂ) ≠ 0 := Complex.ofReal_ne_zero.2 hq.ne'
  have hpi := pi2_ne
  have he : ((energy q mq : ℝ) : ℂ) ≠ 0 := Complex.ofReal_ne_zero.2 (energy_ne hq mq)
  have h1 := h.first_plus
  have h2 := h.first_minus
  refine quark_static (energy_ne hq mq) h
    (C := fun om => ((fermi_distribution_double (energy q mq) beta mu : ℝ) : ℂ) * (q : ℂ) ^ 2 * ((energy q mq : ℝ) : ℂ)⁻¹ * ((k.nc : ℕ) : ℂ)⁻¹ / (2 * PI2) * ((p : ℂ) ^ 2)⁻¹ * ((om : ℂ) ^ 2 + p ^ 2) * ((om : ℂ) ^ 2 + p ^ 2 - 4 * ((energy q mq : ℝ) : ℂ) ^ 2 + 4 * Complex.I * om * ((energy q mq : ℝ) : ℂ)) / (8 * q * p))
    (K := fun om => -(((fermi_distribution_double (energy q mq) beta mu : ℝ) : ℂ) * (q : ℂ) ^ 2 * ((energy q mq : ℝ) : ℂ)⁻¹ * ((k.nc : ℕ) : ℂ)⁻¹ / (2 * PI2) * ((p : ℂ) ^ 2)⁻¹ * ((om : ℂ) ^ 2 + p ^ 2))) (by fun_prop) (by fun_prop) (fun om => ?_) ?_
  · simp only [gluon.thermal.polarization_quark_l_thermal_part_landau_i, tlog_same_mass_eq, map_neg, toC_ofR, toC_real, toC_complex, ofR_real, ofR_complex, neg_mul, map_neg]
    push_cast
    simp only [mul_inv, div_eq_mul_inv]
    generalize ((energy q mq : ℝ) : ℂ) = E at he ⊢
    generalize ((k.nc : ℕ) : ℂ)⁻¹ = n
    generalize ((fermi_distribution_double (energy q mq) beta mu : ℝ) : ℂ) = F
    generalize TL q om p E 0 = T1
    generalize TL q (-om) p E 0 = T2
    simp only [I]
    field_simp
    ring
  · simp only [gluon.thermal.zero_matsubara.polarization_quark_l_thermal_part_landau_i, Complex.ofReal_mul, Complex.ofReal_div, Complex.ofReal_sub, Complex.ofReal_add, Complex.ofReal_neg, z0_tlog_same_mass_eq, Complex.ofReal_one]
    push_cast
    simp only [mul_inv, div_eq_mul_inv]
    generalize ((energy q mq : ℝ) : ℂ) = E at he ⊢
    generalize ((k.nc : ℕ) : ℂ)⁻¹ = n
    generalize ((fermi_distribution_double (energy q mq) beta mu : ℝ) : ℂ) = F
    field_simp
    ring

/-- **C41**: the transverse quark polarization. -/
theorem C41_quark_t (k : Consts ℝ) (hq : 0 < q) (h : Spec.StaticRegular q p 0) (mq beta mu : ℝ) :
    Tendsto (fun om : ℝ => gluon.thermal.polarization_quark_t_thermal_part_landau_i k q om p mq beta mu) (𝓝[≠] 0)
      (𝓝 (gluon.thermal.zero_matsubara.polarization_quark_t_thermal_part_landau_i k q p mq beta mu : ℝ)) := by
  have hp : (p : ℂ) ≠ 0 := Complex.ofReal_ne_zero.2 h.momentum
  have hq0 : (q : ℂ) ≠ 0 := Complex.ofReal_ne_zero.2 hq.ne'
  have hpi := pi2_ne
  have he : ((energy q mq : ℝ) : ℂ) ≠ 0 := Complex.ofReal_ne_zero.2 (energy_ne hq mq)
  have h1 := h.first_plus
  have h2 := h.first_minus
  refine quark_static (energy_ne hq mq) h
    (C := fun om => ((fermi_distribution_double (energy q mq) beta mu : ℝ) : ℂ) * (q : ℂ) ^ 2 * ((energy q mq : ℝ) : ℂ)⁻¹ * ((k.nc : ℕ) : ℂ)⁻¹ / (4 * PI2) * ((p : ℂ) ^ 2)⁻¹ * ((-(om : ℂ) ^ 2 + p ^ 2) * (om ^ 2 + p ^ 2) + 4 * q ^ 2 * p ^ 2 + 4 * om ^ 2 * ((energy q mq : ℝ) : ℂ) ^ 2 - 4 * Complex.I * om * (om ^ 2 + p ^ 2) * ((energy q mq : ℝ) : ℂ)) / (8 * q * p))
    (K := fun om => -(((fermi_distribution_double (energy q mq) beta mu : ℝ) : ℂ) * (q : ℂ) ^ 2 * ((energy q mq : ℝ) : ℂ)⁻¹ * ((k.nc : ℕ) : ℂ)⁻¹ / (4 * PI2) * ((p : ℂ) ^ 2)⁻¹ * (-(om : ℂ) ^ 2 + p ^ 2))) (by fun_prop) (by fun_prop) (fun om => ?_) ?_
  · simp only [gluon.thermal.polarization_quark_t_thermal_part_landau_i, tlog_same_mass_eq, map_neg, toC_ofR, toC_real, toC_complex, ofR_real, ofR_complex, neg_mul, map_neg]
    push_cast
    simp only [mul_inv, div_eq_mul_inv]
    generalize ((energy q mq : ℝ) : ℂ) = E at he ⊢
    generalize ((k.nc : ℕ) : ℂ)⁻¹ = n
    generalize ((fermi_distribution_double (energy q mq) beta mu : ℝ) : ℂ) = F
    generalize TL q om p E 0 = T1
    generalize TL q (-om) p E 0 = T2
    simp only [I]
    field_simp
    ring
  · simp only [gluon.thermal.zero_matsubara.polarization_quark_t_thermal_part_landau_i, Complex.ofReal_mul, Complex.ofReal_div, Complex.ofReal_sub, Complex.ofReal_add, Complex.ofReal_neg, z0_tlog_same_mass_eq, Complex.ofReal_one]
    push_cast
    simp only [mul_inv, div_eq_mul_inv]
    generalize ((energy q mq : ℝ) : ℂ) = E at he ⊢
    generalize ((k.nc : ℕ) : ℂ)⁻¹ = n
    generalize ((fermi_distribution_double (energy q mq) beta mu : ℝ) : ℂ) = F
    field_simp
    ring

/-- **C41**: the longitudinal quark polarization, zero-temperature integrand. -/
theorem C41_quark_l_zero_temp (k : Consts ℝ) (hq : 0 < q) (h : Spec.StaticRegular q p 0) (mq mu : ℝ) :
    Tendsto (fun om : ℝ => gluon.thermal.polarization_quark_l_thermal_part_zero_temp_landau_i k q om p mq mu) (𝓝[≠] 0)
      (𝓝 (gluon.thermal.zero_matsubara.polarization_quark_l_thermal_part_zero_temp_landau_i k q p mq mu : ℝ)) := by
  have hp : (p : ℂ) ≠ 0 := Complex.ofReal_ne_zero.2 h.momentum
  have hq0 : (q : ℂ) ≠ 0 := Complex.ofReal_ne_zero.2 hq.ne'
  have hpi := pi2_ne
  have he : ((energy q mq : ℝ) : ℂ) ≠ 0 := Complex.ofReal_ne_zero.2 (energy_ne hq mq)
  have h1 := h.first_plus
  have h2 := h.first_minus
  refine quark_static (energy_ne hq mq) h
    (C := fun om => ((fermi_distribution_double_zero_temp (energy q mq) mu : ℝ) : ℂ) * (q : ℂ) ^ 2 * ((energy q mq : ℝ) : ℂ)⁻¹ * ((k.nc : ℕ) : ℂ)⁻¹ / (2 * PI2) * ((p : ℂ) ^ 2)⁻¹ * ((om : ℂ) ^ 2 + p ^ 2) * ((om : ℂ) ^ 2 + p ^ 2 - 4 * ((energy q mq : ℝ) : ℂ) ^ 2 + 4 * Complex.I * om * ((energy q mq : ℝ) : ℂ)) / (8 * q * p))
    (K := fun om => -(((fermi_distribution_double_zero_temp (energy q mq) mu : ℝ) : ℂ) * (q : ℂ) ^ 2 * ((energy q mq : ℝ) : ℂ)⁻¹ * ((k.nc : ℕ) : ℂ)⁻¹ / (2 * PI2) * ((p : ℂ) ^ 2)⁻¹ * ((om : ℂ) ^ 2 + p ^ 2))) (by fun_prop) (by fun_prop) (fun om => ?_) ?_
  · simp only [gluon.thermal.polarization_quark_l_thermal_part_zero_temp_landau_i, tlog_same_mass_eq, map_neg, toC_ofR, toC_real, toC_complex, ofR_real, ofR_complex, neg_mul, map_neg]
    push_cast
    simp only [mul_inv, div_eq_mul_inv]
    generalize ((energy q mq : ℝ) : ℂ) = E at he ⊢
    generalize ((k.nc : ℕ) : ℂ)⁻¹ = n
    generalize ((fermi_distribution_double_zero_temp (energy q mq) mu : ℝ) : ℂ) = F
    generalize TL q om p E 0 = T1
    generalize TL q (-om) p E 0 = T2
    simp only [I]
    field_simp
    ring
  · simp only [gluon.thermal.zero_matsubara.polarization_quark_l_thermal_part_zero_temp_landau_i, Complex.ofReal_mul, Complex.ofReal_div, Complex.ofReal_sub, Complex.ofReal_add, Complex.ofReal_neg, z0_tlog_same_mass_eq, Complex.ofReal_one]
    push_cast
    simp only [mul_inv, div_eq_mul_inv]
    generalize ((energy q mq : ℝ) : ℂ) = E at he ⊢
    generalize ((k.nc : ℕ) : ℂ)⁻¹ = n
    generalize ((fermi_distribution_double_zero_temp (energy q mq) mu : ℝ) : ℂ) = F
    field_simp
    ring

/-- **C41**: the transverse quark polarization, zero-temperature integrand. -/
theorem C41_quark_t_zero_temp (k : Consts ℝ) (hq : 0 < q) (h : Spec.StaticRegular q p 0) (mq mu : ℝ) :
    Tendsto (fun om : ℝ => gluon.thermal.polarization_quark_t_thermal_part_zero_temp_landau_i k q om p mq mu) (𝓝[≠] 0)
      (𝓝 (gluon.thermal.zero_matsubara.polarization_quark_t_thermal_part_zero_temp_landau_i k q p mq mu : ℝ)) := by
  have hp : (p : ℂ) ≠ 0 := Complex.ofReal_ne_zero.2 h.momentum
  have hq0 : (q : ℂ) ≠ 0 := Complex.ofReal_ne_zero.2 hq.ne'
  have hpi := pi2_ne
  have he : ((energy q mq : ℝ) : ℂ) ≠ 0 := Complex.ofReal_ne_zero.2 (energy_ne hq mq)
  have h1 := h.first_plus
  have h2 := h.first_minus
  refine quark_static (energy_ne hq mq) h
    (C := fun om => ((fermi_distribution_double_zero_temp (energy q mq) mu : ℝ) : ℂ) * (q : ℂ) ^ 2 * ((energy q mq : ℝ) : ℂ)⁻¹ * ((k.nc : ℕ) : ℂ)⁻¹ / (4 * PI2) * ((p : ℂ) ^ 2)⁻¹ * ((-(om : ℂ) ^ 2 + p ^ 2) * (om ^ 2 + p ^ 2) + 4 * q ^ 2 * p ^ 2 + 4 * om ^ 2 * ((energy q mq : ℝ) : ℂ) ^ 2 - 4 * Complex.I * om * (om ^ 2 + p ^ 2) * ((energy q mq : ℝ) : ℂ)) / (8 * q * p))
    (K := fun om => -(((fermi_distribution_double_zero_temp (energy q mq) mu : ℝ) : ℂ) * (q : ℂ) ^ 2 * ((energy q mq : ℝ) : ℂ)⁻¹ * ((k.nc : ℕ) : ℂ)⁻¹ / (4 * PI2) * ((p : ℂ) ^ 2)⁻¹ * (-(om : ℂ) ^ 2 + p ^ 2))) (by fun_prop) (by fun_prop) (fun om => ?_) ?_
  · simp only [gluon.thermal.polarization_quark_t_thermal_part_zero_temp_landau_i, tlog_same_mass_eq, map_neg, toC_ofR, toC_real, toC_complex, ofR_real, ofR_complex, neg_mul, map_neg]
    push_cast
    simp only [mul_inv, div_eq_mul_inv]
    generalize ((energy q mq : ℝ) : ℂ) = E at he ⊢
    generalize ((k.nc : ℕ) : ℂ)⁻¹ = n
    generalize ((fermi_distribution_double_zero_temp (energy q mq) mu : ℝ) : ℂ) = F
    generalize TL q om p E 0 = T1
    generalize TL q (-om) p E 0 = T2
    simp only [I]
    field_simp
    ring
  · simp only [gluon.thermal.zero_matsubara.polarization_quark_t_thermal_part_zero_temp_landau_i, Complex.ofReal_mul, Complex.ofReal_div, Complex.ofReal_sub, Complex.ofReal_add, Complex.ofReal_neg, z0_tlog_same_mass_eq, Complex.ofReal_one]
    push_cast
    simp only [mul_inv, div_eq_mul_inv]
    generalize ((energy q mq : ℝ) : ℂ) = E at he ⊢
    generalize ((k.nc : ℕ) : ℂ)⁻¹ = n
    generalize ((fermi_distribution_double_zero_temp (energy q mq) mu : ℝ) : ℂ) = F
    field_simp
    ring

end

/-- The hypotheses are met by a generic point. -/
example : Tendsto (fun om : ℝ => gluon.thermal.polarization_glue_l_thermal_part_landau_i 1 om (3 : ℝ) (1 / 2) 3) (𝓝[≠] 0)
    (𝓝 (gluon.thermal.zero_matsubara.polarization_glue_l_thermal_part_landau_i 1 3 (1 / 2) 3)) :=
  C41_glue_l one_pos ⟨by norm_num, by norm_num, by norm_num, by norm_num, by norm_num⟩
    ⟨by norm_num, by norm_num, by norm_num, by norm_num, by norm_num⟩ _

example : Tendsto (fun om : ℝ => thermal.d_i_m_m_l_i 1 om 4 (1 : ℝ) (2 : ℝ) 3) (𝓝[≠] 0) (𝓝 (thermal.zero_matsubara.d_i_m_m_l_i 1 4 (1 : ℝ) (2 : ℝ) 3)) :=
  C41_d_i_m_m_l_i one_pos _ ⟨by norm_num, by norm_num, by norm_num, by norm_num, by norm_num⟩

end Qcd
