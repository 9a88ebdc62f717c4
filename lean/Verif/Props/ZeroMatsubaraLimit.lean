import Verif.Lemmas.ZeroMatsubara
import Verif.Lemmas.ZeroMomentum
import Verif.Spec.ZeroMatsubara
import Verif.Props.ZeroMomentumLimitParts

/-! # C41: the zero-frequency formulas are the limits of the general ones

Specification of the regularity condition: `Verif/Spec/ZeroMatsubara.lean`. Real frequencies, momenta and masses. -/

set_option linter.unusedSimpArgs false
set_option linter.unusedVariables false

namespace Qcd
open Filter Topology

/-- The step common to all two-propagator integrands. -/
theorem static_of_legs {q p E1 E2 d : ℝ} (hE1 : E1 ≠ 0) (hE2 : E2 ≠ 0) (h : Spec.StaticRegular q p d) {f C1 C2 K : ℝ → ℂ} {v : ℂ}
    (h1 : ContinuousAt C1 0) (h2 : ContinuousAt C2 0) (hK : ContinuousAt K 0)
    (hf : ∀ om : ℝ, om ≠ 0 → f om = (C1 om * TL q om p E1 d + C1 (-om) * TL q (-(om : ℂ)) p E1 d)
      + (C2 om * TL q om p E2 (-(d : ℂ)) + C2 (-om) * TL q (-(om : ℂ)) p E2 (-(d : ℂ))) + K om)
    (hv : v = 2 * C1 0 * ZL q p d + 2 * C2 0 * ZL q p (-(d : ℂ)) + K 0) : Tendsto f (𝓝[≠] 0) (𝓝 v) := by
  have l1 := leg_static hE1 h.first_plus h.first_minus h1
  have l2 := leg_static hE2 (d := -d) (by have := h.second_plus; rwa [← sub_eq_add_neg]) (by have := h.second_minus; rwa [← sub_eq_add_neg]) h2
  simp only [Complex.ofReal_neg] at l2
  have l3 := hK.tendsto.mono_left (nhdsWithin_le_nhds (s := {0}ᶜ))
  rw [hv]
  refine ((l1.add l2).add l3).congr' ?_
  filter_upwards [self_mem_nhdsWithin] with om hom
  exact (hf om hom).symm

theorem energy_ne {q : ℝ} (hq : 0 < q) (m : ℝ) : energy q m ≠ 0 := (hq.trans_le (le_energy hq.le m)).ne'

section
variable {q p m1 m2 : ℝ}

/-- **C41**: the scalar loop. -/
theorem C41_i_m_m_i (hq : 0 < q) (beta : ℝ) (h : Spec.StaticRegular q p (m2 * m2 - m1 * m1)) :
    Tendsto (fun om : ℝ => thermal.i_m_m_i q om p m1 m2 beta) (𝓝[≠] 0) (𝓝 (thermal.zero_matsubara.i_m_m_i q p m1 m2 beta)) := by
  have hpi := pi2_ne
  have hp : (p : ℂ) ≠ 0 := Complex.ofReal_ne_zero.2 h.momentum
  have hq0 : (q : ℂ) ≠ 0 := Complex.ofReal_ne_zero.2 hq.ne'
  have hE1 : ((energy q m1 : ℝ) : ℂ) ≠ 0 := Complex.ofReal_ne_zero.2 (energy_ne hq m1)
  have hE2 : ((energy q m2 : ℝ) : ℂ) ≠ 0 := Complex.ofReal_ne_zero.2 (energy_ne hq m2)
  obtain ⟨D, hD⟩ : ∃ x : ℝ, x = m2 * m2 - m1 * m1 := ⟨_, rfl⟩
  have hD' : (((m2 * m2 : ℝ) : ℂ) - ((m1 * m1 : ℝ) : ℂ)) = (D : ℂ) := by rw [hD]; push_cast; rfl
  rw [← hD] at h
  refine static_of_legs (energy_ne hq m1) (energy_ne hq m2) h
    (C1 := fun om => q * ((bose_distribution_zero_chempot (energy q m1) beta / energy q m1 : ℝ) : ℂ) / (16 * PI2 * p))
    (C2 := fun om => q * ((bose_distribution_zero_chempot (energy q m2) beta / energy q m2 : ℝ) : ℂ) / (16 * PI2 * p))
    (K := fun om => 0) (by fun_prop) (by fun_prop) (by fun_prop) (fun om hom => ?_) ?_
  · have hom' : (om : ℂ) ≠ 0 := Complex.ofReal_ne_zero.2 hom
    simp only [thermal.i_m_m_i, tlog_eq, map_neg, toC_real, toC_complex, ofR_complex, ofR_real, hD', Complex.ofReal_neg]
    push_cast
    field_simp
    ring
  · simp only [thermal.zero_matsubara.i_m_m_i, z0_tlog_eq, z0_tlog_t_eq, z0_r_0_C, map_neg, toC_real, toC_complex, ofR_complex, ofR_real, neg_div, hD', Complex.ofReal_neg]
    simp only [Complex.ofReal_div, Complex.ofReal_mul]
    push_cast
    field_simp
    first | ring1 | (ring_nf; simp only [Complex.I_sq]; ring1)

/-- **C41**: the longitudinal loop. -/
theorem C41_i_m_m_l_i (hq : 0 < q) (beta : ℝ) (h : Spec.StaticRegular q p (m2 * m2 - m1 * m1)) :
    Tendsto (fun om : ℝ => thermal.i_m_m_l_i q om p m1 m2 beta) (𝓝[≠] 0) (𝓝 (thermal.zero_matsubara.i_m_m_l_i q p m1 m2 beta)) := by
  have hpi := pi2_ne
  have hp : (p : ℂ) ≠ 0 := Complex.ofReal_ne_zero.2 h.momentum
  have hq0 : (q : ℂ) ≠ 0 := Complex.ofReal_ne_zero.2 hq.ne'
  have hE1 : ((energy q m1 : ℝ) : ℂ) ≠ 0 := Complex.ofReal_ne_zero.2 (energy_ne hq m1)
  have hE2 : ((energy q m2 : ℝ) : ℂ) ≠ 0 := Complex.ofReal_ne_zero.2 (energy_ne hq m2)
  obtain ⟨D, hD⟩ : ∃ x : ℝ, x = m2 * m2 - m1 * m1 := ⟨_, rfl⟩
  have hD' : (((m2 * m2 : ℝ) : ℂ) - ((m1 * m1 : ℝ) : ℂ)) = (D : ℂ) := by rw [hD]; push_cast; rfl
  rw [← hD] at h
  refine static_of_legs (energy_ne hq m1) (energy_ne hq m2) h
    (C1 := fun om => q * ((bose_distribution_zero_chempot (energy q m1) beta / energy q m1 : ℝ) : ℂ) / p ^ 3 * ((om : ℂ) * R0 om p (energy q m1 : ℝ) D + 2 * Complex.I * (energy q m1 : ℝ) * p ^ 2) ^ 2 * (64 * (PI2 : ℂ) * ((om : ℂ) ^ 2 + (p : ℂ) ^ 2))⁻¹)
    (C2 := fun om => q * ((bose_distribution_zero_chempot (energy q m2) beta / energy q m2 : ℝ) : ℂ) / p ^ 3 * ((om : ℂ) * R0 om p (energy q m2 : ℝ) (-(D : ℂ)) + 2 * Complex.I * (energy q m2 : ℝ) * p ^ 2) ^ 2 * (64 * (PI2 : ℂ) * ((om : ℂ) ^ 2 + (p : ℂ) ^ 2))⁻¹)
    (K := fun om => -(8 * q * p * om ^ 2) * (q * ((bose_distribution_zero_chempot (energy q m1) beta / energy q m1 : ℝ) : ℂ) / p ^ 3 * (om ^ 2 + p ^ 2 + D) + q * ((bose_distribution_zero_chempot (energy q m2) beta / energy q m2 : ℝ) : ℂ) / p ^ 3 * (om ^ 2 + p ^ 2 - D)) * (64 * (PI2 : ℂ) * ((om : ℂ) ^ 2 + (p : ℂ) ^ 2))⁻¹) (ContinuousAt.mul (by unfold R0; fun_prop) (ContinuousAt.inv₀ (by fun_prop) (by simp [hpi, h.momentum])))
    (ContinuousAt.mul (by unfold R0; fun_prop) (ContinuousAt.inv₀ (by fun_prop) (by simp [hpi, h.momentum])))
    (ContinuousAt.mul (by fun_prop) (ContinuousAt.inv₀ (by fun_prop) (by simp [hpi, h.momentum]))) (fun om hom => ?_) ?_
  · have hom' : (om : ℂ) ≠ 0 := Complex.ofReal_ne_zero.2 hom
    simp only [thermal.i_m_m_l_i, tlog_l_eq, map_neg, toC_real, toC_complex, ofR_complex, ofR_real, hD', PF_eq, PF_eq_neg, Complex.ofReal_neg]
    push_cast
    rw [show ((om : ℂ) * om + (p : ℂ) * p) * (p * p * p) * 64 * PI2 = 64 * (PI2 : ℂ) * (om ^ 2 + p ^ 2) * p ^ 3 by ring, mul_inv]
    simp only [neg_sq]
    generalize (64 * (PI2 : ℂ) * ((om : ℂ) ^ 2 + p ^ 2))⁻¹ = c
    generalize R0 om p (energy q m1 : ℝ) D = A1
    generalize R0 (-om) p (energy q m1 : ℝ) D = A2
    generalize R0 om p (energy q m2 : ℝ) (-D) = A3
    generalize R0 (-om) p (energy q m2 : ℝ) (-D) = A4
    field_simp
    ring
  · simp only [thermal.zero_matsubara.i_m_m_l_i, z0_tlog_eq, z0_tlog_t_eq, z0_r_0_C, map_neg, toC_real, toC_complex, ofR_complex, ofR_real, neg_div, hD', Complex.ofReal_neg]
    simp only [Complex.ofReal_div, Complex.ofReal_mul]
    push_cast
    field_simp
    first | ring1 | (ring_nf; simp only [Complex.I_sq]; ring1)

/-- **C41**: the transverse loop. -/
theorem C41_i_m_m_t_i (hq : 0 < q) (beta : ℝ) (h : Spec.StaticRegular q p (m2 * m2 - m1 * m1)) :
    Tendsto (fun om : ℝ => thermal.i_m_m_t_i q om p m1 m2 beta) (𝓝[≠] 0) (𝓝 (thermal.zero_matsubara.i_m_m_t_i q p m1 m2 beta)) := by
  have hpi := pi2_ne
  have hp : (p : ℂ) ≠ 0 := Complex.ofReal_ne_zero.2 h.momentum
  have hq0 : (q : ℂ) ≠ 0 := Complex.ofReal_ne_zero.2 hq.ne'
  have hE1 : ((energy q m1 : ℝ) : ℂ) ≠ 0 := Complex.ofReal_ne_zero.2 (energy_ne hq m1)
  have hE2 : ((energy q m2 : ℝ) : ℂ) ≠ 0 := Complex.ofReal_ne_zero.2 (energy_ne hq m2)
  obtain ⟨D, hD⟩ : ∃ x : ℝ, x = m2 * m2 - m1 * m1 := ⟨_, rfl⟩
  have hD' : (((m2 * m2 : ℝ) : ℂ) - ((m1 * m1 : ℝ) : ℂ)) = (D : ℂ) := by rw [hD]; push_cast; rfl
  rw [← hD] at h
  refine static_of_legs (energy_ne hq m1) (energy_ne hq m2) h
    (C1 := fun om => -(q * ((bose_distribution_zero_chempot (energy q m1) beta / energy q m1 : ℝ) : ℂ) / (128 * PI2 * p ^ 3)) * (R0 om p (energy q m1 : ℝ) D ^ 2 - (2 * q * p) ^ 2))
    (C2 := fun om => -(q * ((bose_distribution_zero_chempot (energy q m2) beta / energy q m2 : ℝ) : ℂ) / (128 * PI2 * p ^ 3)) * (R0 om p (energy q m2 : ℝ) (-(D : ℂ)) ^ 2 - (2 * q * p) ^ 2))
    (K := fun om => 8 * q * p / (128 * PI2 * p ^ 3) * (q * ((bose_distribution_zero_chempot (energy q m1) beta / energy q m1 : ℝ) : ℂ) * (om ^ 2 + p ^ 2 + D) + q * ((bose_distribution_zero_chempot (energy q m2) beta / energy q m2 : ℝ) : ℂ) * (om ^ 2 + p ^ 2 - D))) (by unfold R0; fun_prop) (by unfold R0; fun_prop) (by fun_prop) (fun om hom => ?_) ?_
  · have hom' : (om : ℂ) ≠ 0 := Complex.ofReal_ne_zero.2 hom
    simp only [thermal.i_m_m_t_i, tlog_t_eq, map_neg, toC_real, toC_complex, ofR_complex, ofR_real, hD', Complex.ofReal_neg]
    push_cast
    generalize R0 om p (energy q m1 : ℝ) D = A1
    generalize R0 (-om) p (energy q m1 : ℝ) D = A2
    generalize R0 om p (energy q m2 : ℝ) (-D) = A3
    generalize R0 (-om) p (energy q m2 : ℝ) (-D) = A4
    field_simp
    ring
  · simp only [thermal.zero_matsubara.i_m_m_t_i, z0_tlog_eq, z0_tlog_t_eq, z0_r_0_C, map_neg, toC_real, toC_complex, ofR_complex, ofR_real, neg_div, hD', Complex.ofReal_neg, R0]
    simp only [Complex.ofReal_div, Complex.ofReal_mul]
    push_cast
    field_simp
    first | ring1 | (ring_nf; simp only [Complex.I_sq]; ring1)

/-- The inverse denominators at the endpoints, as continuous functions of the frequency. -/
theorem rinv_cont {E d x : ℂ} (hx : (p : ℂ) * p + d + x ≠ 0) : ContinuousAt (fun om : ℝ => (R0 om p E d + x)⁻¹) 0 := by
  refine ContinuousAt.inv₀ (by unfold R0; fun_prop) ?_
  simpa [R0] using hx

theorem rinv_cont' {E d x : ℂ} (hx : (p : ℂ) * p + d + x ≠ 0) : ContinuousAt (fun om : ℝ => (R0 (-(om : ℂ)) p E d + x)⁻¹) 0 := by
  refine ContinuousAt.inv₀ (by unfold R0; fun_prop) ?_
  simpa [R0] using hx

theorem rinv_all {D : ℝ} (E1 E2 : ℝ) (h : Spec.StaticRegular q p D) : ∃ r : Fin 8 → ℝ → ℂ, (∀ i, ContinuousAt (r i) 0) ∧
    ((r 0 0 = ((p : ℂ) * p + D + 2 * q * p)⁻¹ ∧ r 1 0 = ((p : ℂ) * p + D - 2 * q * p)⁻¹ ∧ r 2 0 = ((p : ℂ) * p + D + 2 * q * p)⁻¹ ∧
      r 3 0 = ((p : ℂ) * p + D - 2 * q * p)⁻¹) ∧
    (r 4 0 = ((p : ℂ) * p + -D + 2 * q * p)⁻¹ ∧ r 5 0 = ((p : ℂ) * p + -D - 2 * q * p)⁻¹ ∧ r 6 0 = ((p : ℂ) * p + -D + 2 * q * p)⁻¹ ∧
      r 7 0 = ((p : ℂ) * p + -D - 2 * q * p)⁻¹)) ∧
    ∀ om : ℝ, ((R0 om p E1 D + 2 * q * p)⁻¹ = r 0 om ∧ (R0 om p E1 D - 2 * q * p)⁻¹ = r 1 om ∧
      (R0 (-(om : ℂ)) p E1 D + 2 * q * p)⁻¹ = r 2 om ∧ (R0 (-(om : ℂ)) p E1 D - 2 * q * p)⁻¹ = r 3 om) ∧
      ((R0 om p E2 (-(D : ℂ)) + 2 * q * p)⁻¹ = r 4 om ∧ (R0 om p E2 (-(D : ℂ)) - 2 * q * p)⁻¹ = r 5 om ∧
      (R0 (-(om : ℂ)) p E2 (-(D : ℂ)) + 2 * q * p)⁻¹ = r 6 om ∧ (R0 (-(om : ℂ)) p E2 (-(D : ℂ)) - 2 * q * p)⁻¹ = r 7 om) := by
  have h1 : (p : ℂ) * p + D + 2 * q * p ≠ 0 := by
    have : ((p * p + D + q * 2 * p : ℝ) : ℂ) ≠ 0 := by exact_mod_cast h.first_plus
    intro h; apply this; push_cast; linear_combination h
  have h2 : (p : ℂ) * p + D + -(2 * q * p) ≠ 0 := by
    have : ((p * p + D - q * 2 * p : ℝ) : ℂ) ≠ 0 := by exact_mod_cast h.first_minus
    intro h; apply this; push_cast; linear_combination h
  have h3 : (p : ℂ) * p + -D + 2 * q * p ≠ 0 := by
    have : ((p * p - D + q * 2 * p : ℝ) : ℂ) ≠ 0 := by exact_mod_cast h.second_plus
    intro h; apply this; push_cast; linear_combination h
  have h4 : (p : ℂ) * p + -D + -(2 * q * p) ≠ 0 := by
    have : ((p * p - D - q * 2 * p : ℝ) : ℂ) ≠ 0 := by exact_mod_cast h.second_minus
    intro h; apply this; push_cast; linear_combination h
  refine ⟨![fun om => (R0 om p E1 D + 2 * q * p)⁻¹, fun om => (R0 om p E1 D + -(2 * q * p))⁻¹,
    fun om => (R0 (-(om : ℂ)) p E1 D + 2 * q * p)⁻¹, fun om => (R0 (-(om : ℂ)) p E1 D + -(2 * q * p))⁻¹,
    fun om => (R0 om p E2 (-(D : ℂ)) + 2 * q * p)⁻¹, fun om => (R0 om p E2 (-(D : ℂ)) + -(2 * q * p))⁻¹,
    fun om => (R0 (-(om : ℂ)) p E2 (-(D : ℂ)) + 2 * q * p)⁻¹, fun om => (R0 (-(om : ℂ)) p E2 (-(D : ℂ)) + -(2 * q * p))⁻¹], ?_, ?_, ?_⟩
  · intro i
    fin_cases i
    · exact rinv_cont h1
    · exact rinv_cont h2
    · exact rinv_cont' h1
    · exact rinv_cont' h2
    · exact rinv_cont h3
    · exact rinv_cont h4
    · exact rinv_cont' h3
    · exact rinv_cont' h4
  · refine ⟨⟨?_, ?_, ?_, ?_⟩, ?_, ?_, ?_, ?_⟩ <;> simp [R0, sub_eq_add_neg]
  · intro om
    refine ⟨⟨?_, ?_, ?_, ?_⟩, ?_, ?_, ?_, ?_⟩ <;> simp [R0, sub_eq_add_neg]

/-- **C41**: the mass derivative of the scalar loop. -/
theorem C41_d_i_m_m_i (hq : 0 < q) (beta : ℝ) (h : Spec.StaticRegular q p (m2 * m2 - m1 * m1)) :
    Tendsto (fun om : ℝ => thermal.d_i_m_m_i q om p m1 m2 beta) (𝓝[≠] 0) (𝓝 (thermal.zero_matsubara.d_i_m_m_i q p m1 m2 beta)) := by
  have hpi := pi2_ne
  have hp : (p : ℂ) ≠ 0 := Complex.ofReal_ne_zero.2 h.momentum
  have hq0 : (q : ℂ) ≠ 0 := Complex.ofReal_ne_zero.2 hq.ne'
  have hE1 : ((energy q m1 : ℝ) : ℂ) ≠ 0 := Complex.ofReal_ne_zero.2 (energy_ne hq m1)
  have hE2 : ((energy q m2 : ℝ) : ℂ) ≠ 0 := Complex.ofReal_ne_zero.2 (energy_ne hq m2)
  obtain ⟨D, hD⟩ : ∃ x : ℝ, x = m2 * m2 - m1 * m1 := ⟨_, rfl⟩
  have hD' : (((m2 * m2 : ℝ) : ℂ) - ((m1 * m1 : ℝ) : ℂ)) = (D : ℂ) := by rw [hD]; push_cast; rfl
  rw [← hD] at h
  obtain ⟨r, hr, hr0, hr1⟩ := rinv_all (energy q m1) (energy q m2) h
  refine static_of_legs (energy_ne hq m1) (energy_ne hq m2) h
    (C1 := fun om => 0)
    (C2 := fun om => 0)
    (K := fun om => (((bose_distribution_zero_chempot (energy q m1) beta / energy q m1 : ℝ) : ℂ) * (-q * ((r 0 om - r 1 om) + (r 2 om - r 3 om)) - p * (r 0 om + r 1 om + r 2 om + r 3 om)) + q * ((bose_distribution_zero_chempot (energy q m2) beta / energy q m2 : ℝ) : ℂ) * ((r 4 om - r 5 om) + (r 6 om - r 7 om))) / (16 * PI2 * p)) ?_ ?_ ?_ (fun om hom => ?_) ?_
  · fun_prop
  · fun_prop
  · have r0 := hr 0; have r1 := hr 1; have r2 := hr 2; have r3 := hr 3; have r4 := hr 4; have r5 := hr 5; have r6 := hr 6; have r7 := hr 7
    fun_prop
  · have hom' : (om : ℂ) ≠ 0 := Complex.ofReal_ne_zero.2 hom
    obtain ⟨⟨e1, e2, e3, e4⟩, e5, e6, e7, e8⟩ := hr1 om
    simp only [thermal.d_i_m_m_i, r_0_eq, map_neg, toC_real, toC_complex, ofR_complex, ofR_real, hD', Complex.ofReal_neg]
    push_cast
    simp only [show (q : ℂ) * p * 2 = 2 * q * p by ring, show (2 : ℂ) * p * q = 2 * q * p by ring, e1, e2, e3, e4, e5, e6, e7, e8]
    generalize r 0 om = r0
    generalize r 1 om = r1
    generalize r 2 om = r2
    generalize r 3 om = r3
    generalize r 4 om = r4
    generalize r 5 om = r5
    generalize r 6 om = r6
    generalize r 7 om = r7
    field_simp
    ring
  · obtain ⟨⟨e1, e2, e3, e4⟩, e5, e6, e7, e8⟩ := hr0
    try simp only [e1, e2, e3, e4, e5, e6, e7, e8]
    simp only [thermal.zero_matsubara.d_i_m_m_i, z0_tlog_eq, z0_tlog_t_eq, z0_r_0_C, map_neg, toC_real, toC_complex, ofR_complex, ofR_real, neg_div, hD', Complex.ofReal_neg]
    simp only [Complex.ofReal_div, Complex.ofReal_mul]
    push_cast
    try simp only [show (q : ℂ) * p * 2 = 2 * q * p by ring, show (2 : ℂ) * p * q = 2 * q * p by ring]
    generalize ((p : ℂ) * p + D + 2 * q * p)⁻¹ = x1
    generalize ((p : ℂ) * p + D - 2 * q * p)⁻¹ = x2
    generalize ((p : ℂ) * p + -D + 2 * q * p)⁻¹ = x3
    generalize ((p : ℂ) * p + -D - 2 * q * p)⁻¹ = x4
    field_simp
    first | ring1 | (ring_nf; simp only [Complex.I_sq]; ring1)

/-- **C41**: the mass derivative of the longitudinal loop. -/
theorem C41_d_i_m_m_l_i (hq : 0 < q) (beta : ℝ) (h : Spec.StaticRegular q p (m2 * m2 - m1 * m1)) :
    Tendsto (fun om : ℝ => thermal.d_i_m_m_l_i q om p m1 m2 beta) (𝓝[≠] 0) (𝓝 (thermal.zero_matsubara.d_i_m_m_l_i q p m1 m2 beta)) := by
  have hpi := pi2_ne
  have hp : (p : ℂ) ≠ 0 := Complex.ofReal_ne_zero.2 h.momentum
  have hq0 : (q : ℂ) ≠ 0 := Complex.ofReal_ne_zero.2 hq.ne'
  have hE1 : ((energy q m1 : ℝ) : ℂ) ≠ 0 := Complex.ofReal_ne_zero.2 (energy_ne hq m1)
  have hE2 : ((energy q m2 : ℝ) : ℂ) ≠ 0 := Complex.ofReal_ne_zero.2 (energy_ne hq m2)
  obtain ⟨D, hD⟩ : ∃ x : ℝ, x = m2 * m2 - m1 * m1 := ⟨_, rfl⟩
  have hD' : (((m2 * m2 : ℝ) : ℂ) - ((m1 * m1 : ℝ) : ℂ)) = (D : ℂ) := by rw [hD]; push_cast; rfl
  rw [← hD] at h
  obtain ⟨r, hr, hr0, hr1⟩ := rinv_all (energy q m1) (energy q m2) h
  refine static_of_legs (energy_ne hq m1) (energy_ne hq m2) h
    (C1 := fun om => -q * ((bose_distribution_zero_chempot (energy q m1) beta / energy q m1 : ℝ) : ℂ) * (2 * om * ((om : ℂ) * R0 om p (energy q m1 : ℝ) D + 2 * Complex.I * (energy q m1 : ℝ) * p ^ 2)) / p ^ 3 * (64 * (PI2 : ℂ) * ((om : ℂ) ^ 2 + (p : ℂ) ^ 2))⁻¹)
    (C2 := fun om => q * ((bose_distribution_zero_chempot (energy q m2) beta / energy q m2 : ℝ) : ℂ) * (2 * om * ((om : ℂ) * R0 om p (energy q m2 : ℝ) (-(D : ℂ)) + 2 * Complex.I * (energy q m2 : ℝ) * p ^ 2)) / p ^ 3 * (64 * (PI2 : ℂ) * ((om : ℂ) ^ 2 + (p : ℂ) ^ 2))⁻¹)
    (K := fun om => (-q * ((bose_distribution_zero_chempot (energy q m1) beta / energy q m1 : ℝ) : ℂ) * (((om : ℂ) * R0 om p (energy q m1 : ℝ) D + 2 * Complex.I * (energy q m1 : ℝ) * p ^ 2) ^ 2 * (r 0 om - r 1 om) + ((om : ℂ) * R0 (-(om : ℂ)) p (energy q m1 : ℝ) D - 2 * Complex.I * (energy q m1 : ℝ) * p ^ 2) ^ 2 * (r 2 om - r 3 om) - 8 * q * p * om ^ 2) - ((bose_distribution_zero_chempot (energy q m1) beta / energy q m1 : ℝ) : ℂ) / 2 * (((om : ℂ) * R0 om p (energy q m1 : ℝ) D + 2 * Complex.I * (energy q m1 : ℝ) * p ^ 2) ^ 2 * (2 * p * (r 0 om + r 1 om)) + ((om : ℂ) * R0 (-(om : ℂ)) p (energy q m1 : ℝ) D - 2 * Complex.I * (energy q m1 : ℝ) * p ^ 2) ^ 2 * (2 * p * (r 2 om + r 3 om)) - 8 * p * om ^ 2 * (om ^ 2 + p ^ 2 + D)) + q * ((bose_distribution_zero_chempot (energy q m2) beta / energy q m2 : ℝ) : ℂ) * (((om : ℂ) * R0 om p (energy q m2 : ℝ) (-(D : ℂ)) + 2 * Complex.I * (energy q m2 : ℝ) * p ^ 2) ^ 2 * (r 4 om - r 5 om) + ((om : ℂ) * R0 (-(om : ℂ)) p (energy q m2 : ℝ) (-(D : ℂ)) - 2 * Complex.I * (energy q m2 : ℝ) * p ^ 2) ^ 2 * (r 6 om - r 7 om) - 8 * q * p * om ^ 2)) / p ^ 3 * (64 * (PI2 : ℂ) * ((om : ℂ) ^ 2 + (p : ℂ) ^ 2))⁻¹) ?_ ?_ ?_ (fun om hom => ?_) ?_
  · refine ContinuousAt.mul (by unfold R0; fun_prop) (ContinuousAt.inv₀ (by fun_prop) (by simp [hpi, h.momentum]))
  · refine ContinuousAt.mul (by unfold R0; fun_prop) (ContinuousAt.inv₀ (by fun_prop) (by simp [hpi, h.momentum]))
  · have r0 := hr 0; have r1 := hr 1; have r2 := hr 2; have r3 := hr 3; have r4 := hr 4; have r5 := hr 5; have r6 := hr 6; have r7 := hr 7
    refine ContinuousAt.mul (by unfold R0; fun_prop) (ContinuousAt.inv₀ (by fun_prop) (by simp [hpi, h.momentum]))
  · have hom' : (om : ℂ) ≠ 0 := Complex.ofReal_ne_zero.2 hom
    obtain ⟨⟨e1, e2, e3, e4⟩, e5, e6, e7, e8⟩ := hr1 om
    simp only [thermal.d_i_m_m_l_i, r_0_eq, tlog_eq, map_mul (Num.toC (T := ℝ)), map_add (Num.toC (T := ℝ)), map_inv₀ (Num.toC (T := ℝ)), map_neg, toC_real, toC_complex, ofR_complex, ofR_real, hD', Complex.ofReal_neg]
    simp only [← Complex.ofReal_mul, hD']
    push_cast
    have f1 : ∀ e d : ℂ, R0 om p e d + e * ((om : ℂ)⁻¹ * 2 * I * (p * p)) = (om * R0 om p e d + 2 * Complex.I * e * p ^ 2) * (om : ℂ)⁻¹ := fun e d => by
      simp only [I]; field_simp
    have f2 : ∀ e d : ℂ, R0 (-om) p e d - e * ((om : ℂ)⁻¹ * 2 * I * (p * p)) = (om * R0 (-om) p e d - 2 * Complex.I * e * p ^ 2) * (om : ℂ)⁻¹ := fun e d => by
      simp only [I]; field_simp
    simp only [f1, f2, show (q : ℂ) * p * 2 = 2 * q * p by ring, show (2 : ℂ) * p * q = 2 * q * p by ring, e1, e2, e3, e4, e5, e6, e7, e8]
    rw [show ((om : ℂ) * om + (p : ℂ) * p) * (p * p) * 64 * PI2 = 64 * (PI2 : ℂ) * (om ^ 2 + p ^ 2) * p ^ 2 by ring, mul_inv]
    simp only [neg_sq]
    generalize (64 * (PI2 : ℂ) * ((om : ℂ) ^ 2 + p ^ 2))⁻¹ = c
    generalize R0 om p (energy q m1 : ℝ) D = A1
    generalize R0 (-om) p (energy q m1 : ℝ) D = A2
    generalize R0 om p (energy q m2 : ℝ) (-D) = A3
    generalize R0 (-om) p (energy q m2 : ℝ) (-D) = A4
    generalize r 0 om = r0
    generalize r 1 om = r1
    generalize r 2 om = r2
    generalize r 3 om = r3
    generalize r 4 om = r4
    generalize r 5 om = r5
    generalize r 6 om = r6
    generalize r 7 om = r7
    field_simp
    ring
  · obtain ⟨⟨e1, e2, e3, e4⟩, e5, e6, e7, e8⟩ := hr0
    try simp only [e1, e2, e3, e4, e5, e6, e7, e8]
    simp only [thermal.zero_matsubara.d_i_m_m_l_i, z0_tlog_eq, z0_tlog_t_eq, z0_r_0_C, map_neg, toC_real, toC_complex, ofR_complex, ofR_real, neg_div, hD', Complex.ofReal_neg]
    simp only [Complex.ofReal_div, Complex.ofReal_mul]
    push_cast
    try simp only [show (q : ℂ) * p * 2 = 2 * q * p by ring, show (2 : ℂ) * p * q = 2 * q * p by ring]
    generalize ((p : ℂ) * p + D + 2 * q * p)⁻¹ = x1
    generalize ((p : ℂ) * p + D - 2 * q * p)⁻¹ = x2
    generalize ((p : ℂ) * p + -D + 2 * q * p)⁻¹ = x3
    generalize ((p : ℂ) * p + -D - 2 * q * p)⁻¹ = x4
    field_simp
    first | ring1 | (ring_nf; simp only [Complex.I_sq]; ring1)

/-- **C41**: the mass derivative of the transverse loop. -/
theorem C41_d_i_m_m_t_i (hq : 0 < q) (beta : ℝ) (h : Spec.StaticRegular q p (m2 * m2 - m1 * m1)) :
    Tendsto (fun om : ℝ => thermal.d_i_m_m_t_i q om p m1 m2 beta) (𝓝[≠] 0) (𝓝 (thermal.zero_matsubara.d_i_m_m_t_i q p m1 m2 beta)) := by
  have hpi := pi2_ne
  have hp : (p : ℂ) ≠ 0 := Complex.ofReal_ne_zero.2 h.momentum
  have hq0 : (q : ℂ) ≠ 0 := Complex.ofReal_ne_zero.2 hq.ne'
  have hE1 : ((energy q m1 : ℝ) : ℂ) ≠ 0 := Complex.ofReal_ne_zero.2 (energy_ne hq m1)
  have hE2 : ((energy q m2 : ℝ) : ℂ) ≠ 0 := Complex.ofReal_ne_zero.2 (energy_ne hq m2)
  obtain ⟨D, hD⟩ : ∃ x : ℝ, x = m2 * m2 - m1 * m1 := ⟨_, rfl⟩
  have hD' : (((m2 * m2 : ℝ) : ℂ) - ((m1 * m1 : ℝ) : ℂ)) = (D : ℂ) := by rw [hD]; push_cast; rfl
  rw [← hD] at h
  obtain ⟨r, hr, hr0, hr1⟩ := rinv_all (energy q m1) (energy q m2) h
  refine static_of_legs (energy_ne hq m1) (energy_ne hq m2) h
    (C1 := fun om => -(q * ((bose_distribution_zero_chempot (energy q m1) beta / energy q m1 : ℝ) : ℂ) * (2 * R0 om p (energy q m1 : ℝ) D - 4 * p ^ 2)) / (-(128 * PI2) * p ^ 3))
    (C2 := fun om => q * ((bose_distribution_zero_chempot (energy q m2) beta / energy q m2 : ℝ) : ℂ) * (2 * R0 om p (energy q m2 : ℝ) (-(D : ℂ))) / (-(128 * PI2) * p ^ 3))
    (K := fun om => (16 * q * p * q * (((bose_distribution_zero_chempot (energy q m1) beta / energy q m1 : ℝ) : ℂ) - ((bose_distribution_zero_chempot (energy q m2) beta / energy q m2 : ℝ) : ℂ))) / (-(128 * PI2) * p ^ 3)) ?_ ?_ ?_ (fun om hom => ?_) ?_
  · unfold R0; fun_prop
  · unfold R0; fun_prop
  · fun_prop
  · have hom' : (om : ℂ) ≠ 0 := Complex.ofReal_ne_zero.2 hom
    obtain ⟨⟨e1, e2, e3, e4⟩, e5, e6, e7, e8⟩ := hr1 om
    simp only [thermal.d_i_m_m_t_i, r_0_eq, tlog_eq, neg_div, map_neg, toC_real, toC_complex, ofR_complex, ofR_real, hD', Complex.ofReal_neg]
    push_cast
    generalize R0 om p (energy q m1 : ℝ) D = A1
    generalize R0 (-om) p (energy q m1 : ℝ) D = A2
    generalize R0 om p (energy q m2 : ℝ) (-D) = A3
    generalize R0 (-om) p (energy q m2 : ℝ) (-D) = A4
    field_simp
    ring
  · obtain ⟨⟨e1, e2, e3, e4⟩, e5, e6, e7, e8⟩ := hr0
    try simp only [e1, e2, e3, e4, e5, e6, e7, e8]
    simp only [thermal.zero_matsubara.d_i_m_m_t_i, z0_tlog_eq, z0_tlog_t_eq, z0_r_0_C, map_neg, toC_real, toC_complex, ofR_complex, ofR_real, neg_div, hD', Complex.ofReal_neg, R0]
    simp only [Complex.ofReal_div, Complex.ofReal_mul]
    push_cast
    try simp only [show (q : ℂ) * p * 2 = 2 * q * p by ring, show (2 : ℂ) * p * q = 2 * q * p by ring]
    field_simp
    first | ring1 | (ring_nf; simp only [Complex.I_sq]; ring1)

end

end Qcd
