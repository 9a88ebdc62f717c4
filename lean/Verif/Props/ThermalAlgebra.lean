import Verif.Lemmas.ThermalLog

/-! # C34, C35: exchange of the masses, special cases of the thermal integrands -/

set_option linter.unusedSimpArgs false
set_option linter.unusedTactic false
set_option linter.unreachableTactic false

namespace Qcd
open thermal
variable {T T1 T2 T3 T4 : Type} [Num T] [Num T1] [Num T2] [Num T3] [Num T4]

/-- The two-mass integrands of `thermal` are symmetric under exchange of the masses (real or
complex, not necessarily of the same type). -/
theorem C34_thermal :
    (∀ (q : ℝ) (om : T1) (p : ℝ) (m1 : T2) (m2 : T3) (beta : ℝ),
      thermal.i_m_m_i q om p m1 m2 beta = thermal.i_m_m_i q om p m2 m1 beta) ∧
    (∀ (q : ℝ) (om : T1) (p : ℝ) (m1 : T2) (m2 : T3) (beta : ℝ),
      thermal.i_m_m_l_i q om p m1 m2 beta = thermal.i_m_m_l_i q om p m2 m1 beta) ∧
    (∀ (q : ℝ) (om : T1) (p : ℝ) (m1 : T2) (m2 : T3) (beta : ℝ),
      thermal.i_m_m_t_i q om p m1 m2 beta = thermal.i_m_m_t_i q om p m2 m1 beta) := by
  refine ⟨?_, ?_, ?_⟩
  · intro q om p m1 m2 beta
    rw [toC_thermal_i_m_m_i, toC_thermal_i_m_m_i q om p m2 m1]
    simp only [thermal.i_m_m_i, neg_sub]; ring
  · intro q om p m1 m2 beta
    rw [toC_thermal_i_m_m_l_i, toC_thermal_i_m_m_l_i q om p m2 m1]
    simp only [thermal.i_m_m_l_i, neg_sub]; ring
  · intro q om p m1 m2 beta
    rw [toC_thermal_i_m_m_t_i, toC_thermal_i_m_m_t_i q om p m2 m1]
    simp only [thermal.i_m_m_t_i, neg_sub]; ring

/-- The two-mass integrands of `thermal.zero_momentum` are symmetric under exchange of the masses (real or
complex, not necessarily of the same type). -/
theorem C34_thermal_zero_momentum :
    (∀ (q : ℝ) (om : T1) (m1 : T2) (m2 : T3) (beta : ℝ),
      thermal.zero_momentum.i_m_m_i q om m1 m2 beta = thermal.zero_momentum.i_m_m_i q om m2 m1 beta) ∧
    (∀ (q : ℝ) (om : T1) (m1 : T2) (m2 : T3) (beta : ℝ),
      thermal.zero_momentum.i_m_m_l_i q om m1 m2 beta = thermal.zero_momentum.i_m_m_l_i q om m2 m1 beta) ∧
    (∀ (q : ℝ) (om : T1) (m1 : T2) (m2 : T3) (beta : ℝ),
      thermal.zero_momentum.i_m_m_t_i q om m1 m2 beta = thermal.zero_momentum.i_m_m_t_i q om m2 m1 beta) := by
  refine ⟨?_, ?_, ?_⟩
  · intro q om m1 m2 beta
    rw [toC_thermal_zero_momentum_i_m_m_i, toC_thermal_zero_momentum_i_m_m_i q om m2 m1]
    simp only [thermal.zero_momentum.i_m_m_i, neg_sub]; ring
  · intro q om m1 m2 beta
    rw [toC_thermal_zero_momentum_i_m_m_l_i, toC_thermal_zero_momentum_i_m_m_l_i q om m2 m1]
    simp only [thermal.zero_momentum.i_m_m_l_i, neg_sub]; ring
  · intro q om m1 m2 beta
    rw [toC_thermal_zero_momentum_i_m_m_t_i, toC_thermal_zero_momentum_i_m_m_t_i q om m2 m1]
    simp only [thermal.zero_momentum.i_m_m_t_i, thermal.zero_momentum.i_m_m_l_i, neg_sub]; ring

/-- The two-mass integrands of `thermal.zero_matsubara` are symmetric under exchange of the masses (real or
complex, not necessarily of the same type). -/
theorem C34_thermal_zero_matsubara :
    (∀ (q : ℝ) (p : ℝ) (m1 : T2) (m2 : T3) (beta : ℝ),
      thermal.zero_matsubara.i_m_m_i q p m1 m2 beta = thermal.zero_matsubara.i_m_m_i q p m2 m1 beta) ∧
    (∀ (q : ℝ) (p : ℝ) (m1 : T2) (m2 : T3) (beta : ℝ),
      thermal.zero_matsubara.i_m_m_l_i q p m1 m2 beta = thermal.zero_matsubara.i_m_m_l_i q p m2 m1 beta) ∧
    (∀ (q : ℝ) (p : ℝ) (m1 : T2) (m2 : T3) (beta : ℝ),
      thermal.zero_matsubara.i_m_m_t_i q p m1 m2 beta = thermal.zero_matsubara.i_m_m_t_i q p m2 m1 beta) := by
  refine ⟨?_, ?_, ?_⟩
  · intro q p m1 m2 beta
    rw [toC_thermal_zero_matsubara_i_m_m_i, toC_thermal_zero_matsubara_i_m_m_i q p m2 m1]
    simp only [thermal.zero_matsubara.i_m_m_i, neg_sub]; ring
  · intro q p m1 m2 beta
    rw [toC_thermal_zero_matsubara_i_m_m_l_i, toC_thermal_zero_matsubara_i_m_m_l_i q p m2 m1]
    simp only [thermal.zero_matsubara.i_m_m_l_i, neg_sub]; ring
  · intro q p m1 m2 beta
    rw [toC_thermal_zero_matsubara_i_m_m_t_i, toC_thermal_zero_matsubara_i_m_m_t_i q p m2 m1]
    simp only [thermal.zero_matsubara.i_m_m_t_i, neg_sub]; ring

/-- `thermal`: at equal masses the two-mass integrands are the `_same_mass` ones. -/
theorem C35_thermal_same_mass :
    (∀ (q : ℝ) (om : T1) (p : ℝ) (m : T2) (beta : ℝ),
      thermal.i_m_m_i q om p m m beta =
        thermal.i_m_m_i_same_mass q om p m beta) ∧
    (∀ (q : ℝ) (om : T1) (p : ℝ) (m : T2) (beta : ℝ),
      thermal.i_m_m_l_i q om p m m beta =
        thermal.i_m_m_l_i_same_mass q om p m beta) ∧
    (∀ (q : ℝ) (om : T1) (p : ℝ) (m : T2) (beta : ℝ),
      thermal.i_m_m_t_i q om p m m beta =
        thermal.i_m_m_t_i_same_mass q om p m beta) ∧
    (∀ (q : ℝ) (om : T1) (p : ℝ) (m : T2) (beta : ℝ),
      thermal.d_i_m_m_i q om p m m beta =
        thermal.d_i_m_m_i_same_mass q om p m beta) ∧
    (∀ (q : ℝ) (om : T1) (p : ℝ) (m : T2) (beta : ℝ),
      thermal.d_i_m_m_l_i q om p m m beta =
        thermal.d_i_m_m_l_i_same_mass q om p m beta) ∧
    (∀ (q : ℝ) (om : T1) (p : ℝ) (m : T2) (beta : ℝ),
      thermal.d_i_m_m_t_i q om p m m beta =
        thermal.d_i_m_m_t_i_same_mass q om p m beta) := by
  refine ⟨?_, ?_, ?_, ?_, ?_, ?_⟩
  · intro q om p m beta
    rw [toC_thermal_i_m_m_i, toC_thermal_i_m_m_i_same_mass]
    simp only [thermal.i_m_m_i, thermal.i_m_m_i_same_mass, r_0_eq, r_0_same_mass_eq, tlog_eq, tlog_same_mass_eq, tlog_zero_mass_eq, tlog_l_eq, tlog_l_same_mass_eq, tlog_l_zero_mass_eq, tlog_t_eq, tlog_t_same_mass_eq, tlog_t_zero_mass_eq, toC_zero, toC_complex, toC_real, ofR_complex, toC_ofR, map_mul, map_add, map_neg, map_sub, map_inv₀, map_div₀, toC_energy, toC_bose, mul_zero, sub_self, neg_zero, sub_zero, add_zero, zero_sub, neg_neg]
    push_cast
    try simp only [z0_tlog_same_mass_eq, z0_tlog_zero_mass_eq, z0_tlog_t_same_mass_eq, z0_tlog_t_zero_mass_eq, ofReal_bose, add_zero]
    try simp only [mul_inv]
    ring_nf
  · intro q om p m beta
    rw [toC_thermal_i_m_m_l_i, toC_thermal_i_m_m_l_i_same_mass]
    simp only [thermal.i_m_m_l_i, thermal.i_m_m_l_i_same_mass, r_0_eq, r_0_same_mass_eq, tlog_eq, tlog_same_mass_eq, tlog_zero_mass_eq, tlog_l_eq, tlog_l_same_mass_eq, tlog_l_zero_mass_eq, tlog_t_eq, tlog_t_same_mass_eq, tlog_t_zero_mass_eq, toC_zero, toC_complex, toC_real, ofR_complex, toC_ofR, map_mul, map_add, map_neg, map_sub, map_inv₀, map_div₀, toC_energy, toC_bose, mul_zero, sub_self, neg_zero, sub_zero, add_zero, zero_sub, neg_neg]
    push_cast
    try simp only [z0_tlog_same_mass_eq, z0_tlog_zero_mass_eq, z0_tlog_t_same_mass_eq, z0_tlog_t_zero_mass_eq, ofReal_bose, add_zero]
    try simp only [mul_inv]
    ring_nf
  · intro q om p m beta
    rw [toC_thermal_i_m_m_t_i, toC_thermal_i_m_m_t_i_same_mass]
    simp only [thermal.i_m_m_t_i, thermal.i_m_m_t_i_same_mass, r_0_eq, r_0_same_mass_eq, tlog_eq, tlog_same_mass_eq, tlog_zero_mass_eq, tlog_l_eq, tlog_l_same_mass_eq, tlog_l_zero_mass_eq, tlog_t_eq, tlog_t_same_mass_eq, tlog_t_zero_mass_eq, toC_zero, toC_complex, toC_real, ofR_complex, toC_ofR, map_mul, map_add, map_neg, map_sub, map_inv₀, map_div₀, toC_energy, toC_bose, mul_zero, sub_self, neg_zero, sub_zero, add_zero, zero_sub, neg_neg]
    push_cast
    try simp only [z0_tlog_same_mass_eq, z0_tlog_zero_mass_eq, z0_tlog_t_same_mass_eq, z0_tlog_t_zero_mass_eq, ofReal_bose, add_zero]
    try simp only [mul_inv]
    ring_nf
  · intro q om p m beta
    rw [toC_thermal_d_i_m_m_i, toC_thermal_d_i_m_m_i_same_mass]
    simp only [thermal.d_i_m_m_i, thermal.d_i_m_m_i_same_mass, r_0_eq, r_0_same_mass_eq, tlog_eq, tlog_same_mass_eq, tlog_zero_mass_eq, tlog_l_eq, tlog_l_same_mass_eq, tlog_l_zero_mass_eq, tlog_t_eq, tlog_t_same_mass_eq, tlog_t_zero_mass_eq, toC_zero, toC_complex, toC_real, ofR_complex, toC_ofR, map_mul, map_add, map_neg, map_sub, map_inv₀, map_div₀, toC_energy, toC_bose, mul_zero, sub_self, neg_zero, sub_zero, add_zero, zero_sub, neg_neg]
    push_cast
    try simp only [z0_tlog_same_mass_eq, z0_tlog_zero_mass_eq, z0_tlog_t_same_mass_eq, z0_tlog_t_zero_mass_eq, ofReal_bose, add_zero]
    try simp only [mul_inv]
    ring_nf
  · intro q om p m beta
    rw [toC_thermal_d_i_m_m_l_i, toC_thermal_d_i_m_m_l_i_same_mass]
    simp only [thermal.d_i_m_m_l_i, thermal.d_i_m_m_l_i_same_mass, r_0_eq, r_0_same_mass_eq, tlog_eq, tlog_same_mass_eq, tlog_zero_mass_eq, tlog_l_eq, tlog_l_same_mass_eq, tlog_l_zero_mass_eq, tlog_t_eq, tlog_t_same_mass_eq, tlog_t_zero_mass_eq, toC_zero, toC_complex, toC_real, ofR_complex, toC_ofR, map_mul, map_add, map_neg, map_sub, map_inv₀, map_div₀, toC_energy, toC_bose, mul_zero, sub_self, neg_zero, sub_zero, add_zero, zero_sub, neg_neg]
    push_cast
    try simp only [z0_tlog_same_mass_eq, z0_tlog_zero_mass_eq, z0_tlog_t_same_mass_eq, z0_tlog_t_zero_mass_eq, ofReal_bose, add_zero]
    try simp only [mul_inv]
    ring_nf
  · intro q om p m beta
    rw [toC_thermal_d_i_m_m_t_i, toC_thermal_d_i_m_m_t_i_same_mass]
    simp only [thermal.d_i_m_m_t_i, thermal.d_i_m_m_t_i_same_mass, r_0_eq, r_0_same_mass_eq, tlog_eq, tlog_same_mass_eq, tlog_zero_mass_eq, tlog_l_eq, tlog_l_same_mass_eq, tlog_l_zero_mass_eq, tlog_t_eq, tlog_t_same_mass_eq, tlog_t_zero_mass_eq, toC_zero, toC_complex, toC_real, ofR_complex, toC_ofR, map_mul, map_add, map_neg, map_sub, map_inv₀, map_div₀, toC_energy, toC_bose, mul_zero, sub_self, neg_zero, sub_zero, add_zero, zero_sub, neg_neg]
    push_cast
    try simp only [z0_tlog_same_mass_eq, z0_tlog_zero_mass_eq, z0_tlog_t_same_mass_eq, z0_tlog_t_zero_mass_eq, ofReal_bose, add_zero]
    try simp only [mul_inv]
    ring_nf

/-- `thermal`: the two-mass integrands with the second mass zero are the `m_0` ones. -/
theorem C35_thermal_second_mass_zero :
    (∀ (q : ℝ) (om : T1) (p : ℝ) (m : T2) (beta : ℝ), 0 < q →
      thermal.i_m_m_i q om p m (0 : T3) beta =
        thermal.i_m_0_i q om p m beta) ∧
    (∀ (q : ℝ) (om : T1) (p : ℝ) (m : T2) (beta : ℝ), 0 < q →
      thermal.i_m_m_l_i q om p m (0 : T3) beta =
        thermal.i_m_0_l_i q om p m beta) ∧
    (∀ (q : ℝ) (om : T1) (p : ℝ) (m : T2) (beta : ℝ), 0 < q →
      thermal.i_m_m_t_i q om p m (0 : T3) beta =
        thermal.i_m_0_t_i q om p m beta) ∧
    (∀ (q : ℝ) (om : T1) (p : ℝ) (m : T2) (beta : ℝ), 0 < q →
      thermal.d_i_m_m_i q om p m (0 : T3) beta =
        thermal.d_i_m_0_i q om p m beta) ∧
    (∀ (q : ℝ) (om : T1) (p : ℝ) (m : T2) (beta : ℝ), 0 < q →
      thermal.d_i_m_m_l_i q om p m (0 : T3) beta =
        thermal.d_i_m_0_l_i q om p m beta) ∧
    (∀ (q : ℝ) (om : T1) (p : ℝ) (m : T2) (beta : ℝ), 0 < q →
      thermal.d_i_m_m_t_i q om p m (0 : T3) beta =
        thermal.d_i_m_0_t_i q om p m beta) := by
  refine ⟨?_, ?_, ?_, ?_, ?_, ?_⟩
  · intro q om p m beta hq
    have hq0 : (q : ℂ) ≠ 0 := Complex.ofReal_ne_zero.2 hq.ne'
    rw [toC_thermal_i_m_m_i, toC_thermal_i_m_0_i]
    simp only [thermal.i_m_m_i, thermal.i_m_0_i, r_0_eq, r_0_same_mass_eq, tlog_eq, tlog_same_mass_eq, tlog_zero_mass_eq, tlog_l_eq, tlog_l_same_mass_eq, tlog_l_zero_mass_eq, tlog_t_eq, tlog_t_same_mass_eq, tlog_t_zero_mass_eq, toC_zero, energy_zero hq.le, ofReal_bose, toC_complex, toC_real, ofR_complex, toC_ofR, map_mul, map_add, map_neg, map_sub, map_inv₀, map_div₀, toC_energy, toC_bose, mul_zero, sub_self, neg_zero, sub_zero, add_zero, zero_sub, neg_neg]
    push_cast
    try simp only [z0_tlog_same_mass_eq, z0_tlog_zero_mass_eq, z0_tlog_t_same_mass_eq, z0_tlog_t_zero_mass_eq, ofReal_bose, add_zero]
    first | (field_simp; done) | (field_simp; ring_nf; done) | (rw [← sub_eq_zero]; ring_nf; field_simp; ring_nf; done) | (ring_nf; field_simp; done) | (field_simp; ring_nf; field_simp; ring_nf; done)
  · intro q om p m beta hq
    have hq0 : (q : ℂ) ≠ 0 := Complex.ofReal_ne_zero.2 hq.ne'
    rw [toC_thermal_i_m_m_l_i, toC_thermal_i_m_0_l_i]
    simp only [thermal.i_m_m_l_i, thermal.i_m_0_l_i, r_0_eq, r_0_same_mass_eq, tlog_eq, tlog_same_mass_eq, tlog_zero_mass_eq, tlog_l_eq, tlog_l_same_mass_eq, tlog_l_zero_mass_eq, tlog_t_eq, tlog_t_same_mass_eq, tlog_t_zero_mass_eq, toC_zero, energy_zero hq.le, ofReal_bose, toC_complex, toC_real, ofR_complex, toC_ofR, map_mul, map_add, map_neg, map_sub, map_inv₀, map_div₀, toC_energy, toC_bose, mul_zero, sub_self, neg_zero, sub_zero, add_zero, zero_sub, neg_neg]
    push_cast
    try simp only [z0_tlog_same_mass_eq, z0_tlog_zero_mass_eq, z0_tlog_t_same_mass_eq, z0_tlog_t_zero_mass_eq, ofReal_bose, add_zero]
    first | (field_simp; done) | (field_simp; ring_nf; done) | (rw [← sub_eq_zero]; ring_nf; field_simp; ring_nf; done) | (ring_nf; field_simp; done) | (field_simp; ring_nf; field_simp; ring_nf; done)
  · intro q om p m beta hq
    have hq0 : (q : ℂ) ≠ 0 := Complex.ofReal_ne_zero.2 hq.ne'
    rw [toC_thermal_i_m_m_t_i, toC_thermal_i_m_0_t_i]
    simp only [thermal.i_m_m_t_i, thermal.i_m_0_t_i, r_0_eq, r_0_same_mass_eq, tlog_eq, tlog_same_mass_eq, tlog_zero_mass_eq, tlog_l_eq, tlog_l_same_mass_eq, tlog_l_zero_mass_eq, tlog_t_eq, tlog_t_same_mass_eq, tlog_t_zero_mass_eq, toC_zero, energy_zero hq.le, ofReal_bose, toC_complex, toC_real, ofR_complex, toC_ofR, map_mul, map_add, map_neg, map_sub, map_inv₀, map_div₀, toC_energy, toC_bose, mul_zero, sub_self, neg_zero, sub_zero, add_zero, zero_sub, neg_neg]
    push_cast
    try simp only [z0_tlog_same_mass_eq, z0_tlog_zero_mass_eq, z0_tlog_t_same_mass_eq, z0_tlog_t_zero_mass_eq, ofReal_bose, add_zero]
    first | (field_simp; done) | (field_simp; ring_nf; done) | (rw [← sub_eq_zero]; ring_nf; field_simp; ring_nf; done) | (ring_nf; field_simp; done) | (field_simp; ring_nf; field_simp; ring_nf; done)
  · intro q om p m beta hq
    have hq0 : (q : ℂ) ≠ 0 := Complex.ofReal_ne_zero.2 hq.ne'
    rw [toC_thermal_d_i_m_m_i, toC_thermal_d_i_m_0_i]
    simp only [thermal.d_i_m_m_i, thermal.d_i_m_0_i, r_0_eq, r_0_same_mass_eq, tlog_eq, tlog_same_mass_eq, tlog_zero_mass_eq, tlog_l_eq, tlog_l_same_mass_eq, tlog_l_zero_mass_eq, tlog_t_eq, tlog_t_same_mass_eq, tlog_t_zero_mass_eq, toC_zero, energy_zero hq.le, ofReal_bose, toC_complex, toC_real, ofR_complex, toC_ofR, map_mul, map_add, map_neg, map_sub, map_inv₀, map_div₀, toC_energy, toC_bose, mul_zero, sub_self, neg_zero, sub_zero, add_zero, zero_sub, neg_neg]
    push_cast
    try simp only [z0_tlog_same_mass_eq, z0_tlog_zero_mass_eq, z0_tlog_t_same_mass_eq, z0_tlog_t_zero_mass_eq, ofReal_bose, add_zero]
    first | (field_simp; done) | (field_simp; ring_nf; done) | (rw [← sub_eq_zero]; ring_nf; field_simp; ring_nf; done) | (ring_nf; field_simp; done) | (field_simp; ring_nf; field_simp; ring_nf; done)
  · intro q om p m beta hq
    have hq0 : (q : ℂ) ≠ 0 := Complex.ofReal_ne_zero.2 hq.ne'
    rw [toC_thermal_d_i_m_m_l_i, toC_thermal_d_i_m_0_l_i]
    simp only [thermal.d_i_m_m_l_i, thermal.d_i_m_0_l_i, r_0_eq, r_0_same_mass_eq, tlog_eq, tlog_same_mass_eq, tlog_zero_mass_eq, tlog_l_eq, tlog_l_same_mass_eq, tlog_l_zero_mass_eq, tlog_t_eq, tlog_t_same_mass_eq, tlog_t_zero_mass_eq, toC_zero, energy_zero hq.le, ofReal_bose, toC_complex, toC_real, ofR_complex, toC_ofR, map_mul, map_add, map_neg, map_sub, map_inv₀, map_div₀, toC_energy, toC_bose, mul_zero, sub_self, neg_zero, sub_zero, add_zero, zero_sub, neg_neg]
    push_cast
    try simp only [z0_tlog_same_mass_eq, z0_tlog_zero_mass_eq, z0_tlog_t_same_mass_eq, z0_tlog_t_zero_mass_eq, ofReal_bose, add_zero]
    first | (field_simp; done) | (field_simp; ring_nf; done) | (rw [← sub_eq_zero]; ring_nf; field_simp; ring_nf; done) | (ring_nf; field_simp; done) | (field_simp; ring_nf; field_simp; ring_nf; done)
  · intro q om p m beta hq
    have hq0 : (q : ℂ) ≠ 0 := Complex.ofReal_ne_zero.2 hq.ne'
    rw [toC_thermal_d_i_m_m_t_i, toC_thermal_d_i_m_0_t_i]
    simp only [thermal.d_i_m_m_t_i, thermal.d_i_m_0_t_i, r_0_eq, r_0_same_mass_eq, tlog_eq, tlog_same_mass_eq, tlog_zero_mass_eq, tlog_l_eq, tlog_l_same_mass_eq, tlog_l_zero_mass_eq, tlog_t_eq, tlog_t_same_mass_eq, tlog_t_zero_mass_eq, toC_zero, energy_zero hq.le, ofReal_bose, toC_complex, toC_real, ofR_complex, toC_ofR, map_mul, map_add, map_neg, map_sub, map_inv₀, map_div₀, toC_energy, toC_bose, mul_zero, sub_self, neg_zero, sub_zero, add_zero, zero_sub, neg_neg]
    push_cast
    try simp only [z0_tlog_same_mass_eq, z0_tlog_zero_mass_eq, z0_tlog_t_same_mass_eq, z0_tlog_t_zero_mass_eq, ofReal_bose, add_zero]
    first | (field_simp; done) | (field_simp; ring_nf; done) | (rw [← sub_eq_zero]; ring_nf; field_simp; ring_nf; done) | (ring_nf; field_simp; done) | (field_simp; ring_nf; field_simp; ring_nf; done)

/-- `thermal`: the `m_0` integrands at mass zero are the `0_0` ones. -/
theorem C35_thermal_zero_mass :
    (∀ (q : ℝ) (om : T1) (p : ℝ) (beta : ℝ), 0 < q →
      thermal.i_m_0_i q om p (0 : T2) beta =
        thermal.i_0_0_i q om p beta) ∧
    (∀ (q : ℝ) (om : T1) (p : ℝ) (beta : ℝ), 0 < q →
      thermal.i_m_0_l_i q om p (0 : T2) beta =
        thermal.i_0_0_l_i q om p beta) ∧
    (∀ (q : ℝ) (om : T1) (p : ℝ) (beta : ℝ), 0 < q →
      thermal.i_m_0_t_i q om p (0 : T2) beta =
        thermal.i_0_0_t_i q om p beta) ∧
    (∀ (q : ℝ) (om : T1) (p : ℝ) (beta : ℝ), 0 < q →
      thermal.d_i_m_0_i q om p (0 : T2) beta =
        thermal.d_i_0_0_i q om p beta) ∧
    (∀ (q : ℝ) (om : T1) (p : ℝ) (beta : ℝ), 0 < q →
      thermal.d_i_m_0_l_i q om p (0 : T2) beta =
        thermal.d_i_0_0_l_i q om p beta) ∧
    (∀ (q : ℝ) (om : T1) (p : ℝ) (beta : ℝ), 0 < q →
      thermal.d_i_m_0_t_i q om p (0 : T2) beta =
        thermal.d_i_0_0_t_i q om p beta) := by
  refine ⟨?_, ?_, ?_, ?_, ?_, ?_⟩
  · intro q om p beta hq
    have hq0 : (q : ℂ) ≠ 0 := Complex.ofReal_ne_zero.2 hq.ne'
    rw [toC_thermal_i_m_0_i, toC_thermal_i_0_0_i]
    simp only [thermal.i_m_0_i, thermal.i_0_0_i, r_0_eq, r_0_same_mass_eq, tlog_eq, tlog_same_mass_eq, tlog_zero_mass_eq, tlog_l_eq, tlog_l_same_mass_eq, tlog_l_zero_mass_eq, tlog_t_eq, tlog_t_same_mass_eq, tlog_t_zero_mass_eq, toC_zero, energy_zero hq.le, ofReal_bose, toC_complex, toC_real, ofR_complex, toC_ofR, map_mul, map_add, map_neg, map_sub, map_inv₀, map_div₀, toC_energy, toC_bose, mul_zero, sub_self, neg_zero, sub_zero, add_zero, zero_sub, neg_neg]
    push_cast
    try simp only [z0_tlog_same_mass_eq, z0_tlog_zero_mass_eq, z0_tlog_t_same_mass_eq, z0_tlog_t_zero_mass_eq, ofReal_bose, add_zero]
    first | (field_simp; done) | (field_simp; ring_nf; done) | (rw [← sub_eq_zero]; ring_nf; field_simp; ring_nf; done) | (ring_nf; field_simp; done) | (field_simp; ring_nf; field_simp; ring_nf; done)
  · intro q om p beta hq
    have hq0 : (q : ℂ) ≠ 0 := Complex.ofReal_ne_zero.2 hq.ne'
    rw [toC_thermal_i_m_0_l_i, toC_thermal_i_0_0_l_i]
    simp only [thermal.i_m_0_l_i, thermal.i_0_0_l_i, r_0_eq, r_0_same_mass_eq, tlog_eq, tlog_same_mass_eq, tlog_zero_mass_eq, tlog_l_eq, tlog_l_same_mass_eq, tlog_l_zero_mass_eq, tlog_t_eq, tlog_t_same_mass_eq, tlog_t_zero_mass_eq, toC_zero, energy_zero hq.le, ofReal_bose, toC_complex, toC_real, ofR_complex, toC_ofR, map_mul, map_add, map_neg, map_sub, map_inv₀, map_div₀, toC_energy, toC_bose, mul_zero, sub_self, neg_zero, sub_zero, add_zero, zero_sub, neg_neg]
    push_cast
    try simp only [z0_tlog_same_mass_eq, z0_tlog_zero_mass_eq, z0_tlog_t_same_mass_eq, z0_tlog_t_zero_mass_eq, ofReal_bose, add_zero]
    first | (field_simp; done) | (field_simp; ring_nf; done) | (rw [← sub_eq_zero]; ring_nf; field_simp; ring_nf; done) | (ring_nf; field_simp; done) | (field_simp; ring_nf; field_simp; ring_nf; done)
  · intro q om p beta hq
    have hq0 : (q : ℂ) ≠ 0 := Complex.ofReal_ne_zero.2 hq.ne'
    rw [toC_thermal_i_m_0_t_i, toC_thermal_i_0_0_t_i]
    simp only [thermal.i_m_0_t_i, thermal.i_0_0_t_i, r_0_eq, r_0_same_mass_eq, tlog_eq, tlog_same_mass_eq, tlog_zero_mass_eq, tlog_l_eq, tlog_l_same_mass_eq, tlog_l_zero_mass_eq, tlog_t_eq, tlog_t_same_mass_eq, tlog_t_zero_mass_eq, toC_zero, energy_zero hq.le, ofReal_bose, toC_complex, toC_real, ofR_complex, toC_ofR, map_mul, map_add, map_neg, map_sub, map_inv₀, map_div₀, toC_energy, toC_bose, mul_zero, sub_self, neg_zero, sub_zero, add_zero, zero_sub, neg_neg]
    push_cast
    try simp only [z0_tlog_same_mass_eq, z0_tlog_zero_mass_eq, z0_tlog_t_same_mass_eq, z0_tlog_t_zero_mass_eq, ofReal_bose, add_zero]
    first | (field_simp; done) | (field_simp; ring_nf; done) | (rw [← sub_eq_zero]; ring_nf; field_simp; ring_nf; done) | (ring_nf; field_simp; done) | (field_simp; ring_nf; field_simp; ring_nf; done)
  · intro q om p beta hq
    have hq0 : (q : ℂ) ≠ 0 := Complex.ofReal_ne_zero.2 hq.ne'
    rw [toC_thermal_d_i_m_0_i, toC_thermal_d_i_0_0_i]
    simp only [thermal.d_i_m_0_i, thermal.d_i_0_0_i, r_0_eq, r_0_same_mass_eq, tlog_eq, tlog_same_mass_eq, tlog_zero_mass_eq, tlog_l_eq, tlog_l_same_mass_eq, tlog_l_zero_mass_eq, tlog_t_eq, tlog_t_same_mass_eq, tlog_t_zero_mass_eq, toC_zero, energy_zero hq.le, ofReal_bose, toC_complex, toC_real, ofR_complex, toC_ofR, map_mul, map_add, map_neg, map_sub, map_inv₀, map_div₀, toC_energy, toC_bose, mul_zero, sub_self, neg_zero, sub_zero, add_zero, zero_sub, neg_neg]
    push_cast
    try simp only [z0_tlog_same_mass_eq, z0_tlog_zero_mass_eq, z0_tlog_t_same_mass_eq, z0_tlog_t_zero_mass_eq, ofReal_bose, add_zero]
    first | (field_simp; done) | (field_simp; ring_nf; done) | (rw [← sub_eq_zero]; ring_nf; field_simp; ring_nf; done) | (ring_nf; field_simp; done) | (field_simp; ring_nf; field_simp; ring_nf; done)
  · intro q om p beta hq
    have hq0 : (q : ℂ) ≠ 0 := Complex.ofReal_ne_zero.2 hq.ne'
    rw [toC_thermal_d_i_m_0_l_i, toC_thermal_d_i_0_0_l_i]
    simp only [thermal.d_i_m_0_l_i, thermal.d_i_0_0_l_i, r_0_eq, r_0_same_mass_eq, tlog_eq, tlog_same_mass_eq, tlog_zero_mass_eq, tlog_l_eq, tlog_l_same_mass_eq, tlog_l_zero_mass_eq, tlog_t_eq, tlog_t_same_mass_eq, tlog_t_zero_mass_eq, toC_zero, energy_zero hq.le, ofReal_bose, toC_complex, toC_real, ofR_complex, toC_ofR, map_mul, map_add, map_neg, map_sub, map_inv₀, map_div₀, toC_energy, toC_bose, mul_zero, sub_self, neg_zero, sub_zero, add_zero, zero_sub, neg_neg]
    push_cast
    try simp only [z0_tlog_same_mass_eq, z0_tlog_zero_mass_eq, z0_tlog_t_same_mass_eq, z0_tlog_t_zero_mass_eq, ofReal_bose, add_zero]
    first | (field_simp; done) | (field_simp; ring_nf; done) | (rw [← sub_eq_zero]; ring_nf; field_simp; ring_nf; done) | (ring_nf; field_simp; done) | (field_simp; ring_nf; field_simp; ring_nf; done)
  · intro q om p beta hq
    have hq0 : (q : ℂ) ≠ 0 := Complex.ofReal_ne_zero.2 hq.ne'
    rw [toC_thermal_d_i_m_0_t_i, toC_thermal_d_i_0_0_t_i]
    simp only [thermal.d_i_m_0_t_i, thermal.d_i_0_0_t_i, r_0_eq, r_0_same_mass_eq, tlog_eq, tlog_same_mass_eq, tlog_zero_mass_eq, tlog_l_eq, tlog_l_same_mass_eq, tlog_l_zero_mass_eq, tlog_t_eq, tlog_t_same_mass_eq, tlog_t_zero_mass_eq, toC_zero, energy_zero hq.le, ofReal_bose, toC_complex, toC_real, ofR_complex, toC_ofR, map_mul, map_add, map_neg, map_sub, map_inv₀, map_div₀, toC_energy, toC_bose, mul_zero, sub_self, neg_zero, sub_zero, add_zero, zero_sub, neg_neg]
    push_cast
    try simp only [z0_tlog_same_mass_eq, z0_tlog_zero_mass_eq, z0_tlog_t_same_mass_eq, z0_tlog_t_zero_mass_eq, ofReal_bose, add_zero]
    first | (field_simp; done) | (field_simp; ring_nf; done) | (rw [← sub_eq_zero]; ring_nf; field_simp; ring_nf; done) | (ring_nf; field_simp; done) | (field_simp; ring_nf; field_simp; ring_nf; done)

/-- `thermal.zero_momentum`: at equal masses the two-mass integrands are the `_same_mass` ones. -/
theorem C35_thermal_zero_momentum_same_mass :
    (∀ (q : ℝ) (om : T1) (m : T2) (beta : ℝ),
      thermal.zero_momentum.i_m_m_i q om m m beta =
        thermal.zero_momentum.i_m_m_i_same_mass q om m beta) ∧
    (∀ (q : ℝ) (om : T1) (m : T2) (beta : ℝ),
      thermal.zero_momentum.i_m_m_l_i q om m m beta =
        thermal.zero_momentum.i_m_m_l_i_same_mass q om m beta) ∧
    (∀ (q : ℝ) (om : T1) (m : T2) (beta : ℝ),
      thermal.zero_momentum.i_m_m_t_i q om m m beta =
        thermal.zero_momentum.i_m_m_t_i_same_mass q om m beta) ∧
    (∀ (q : ℝ) (om : T1) (m : T2) (beta : ℝ),
      thermal.zero_momentum.d_i_m_m_i q om m m beta =
        thermal.zero_momentum.d_i_m_m_i_same_mass q om m beta) ∧
    (∀ (q : ℝ) (om : T1) (m : T2) (beta : ℝ),
      thermal.zero_momentum.d_i_m_m_l_i q om m m beta =
        thermal.zero_momentum.d_i_m_m_l_i_same_mass q om m beta) ∧
    (∀ (q : ℝ) (om : T1) (m : T2) (beta : ℝ),
      thermal.zero_momentum.d_i_m_m_t_i q om m m beta =
        thermal.zero_momentum.d_i_m_m_t_i_same_mass q om m beta) := by
  refine ⟨?_, ?_, ?_, ?_, ?_, ?_⟩
  · intro q om m beta
    rw [toC_thermal_zero_momentum_i_m_m_i, toC_thermal_zero_momentum_i_m_m_i_same_mass]
    simp only [thermal.zero_momentum.i_m_m_i, thermal.zero_momentum.i_m_m_i_same_mass, zm_r_0_eq, zm_r_0_same_mass_eq, toC_zero, toC_complex, toC_real, ofR_complex, toC_ofR, map_mul, map_add, map_neg, map_sub, map_inv₀, map_div₀, toC_energy, toC_bose, mul_zero, sub_self, neg_zero, sub_zero, add_zero, zero_sub, neg_neg]
    push_cast
    try simp only [z0_tlog_same_mass_eq, z0_tlog_zero_mass_eq, z0_tlog_t_same_mass_eq, z0_tlog_t_zero_mass_eq, ofReal_bose, add_zero]
    try simp only [mul_inv]
    ring_nf
  · intro q om m beta
    rw [toC_thermal_zero_momentum_i_m_m_l_i, toC_thermal_zero_momentum_i_m_m_l_i_same_mass]
    simp only [thermal.zero_momentum.i_m_m_l_i, thermal.zero_momentum.i_m_m_l_i_same_mass, zm_r_0_eq, zm_r_0_same_mass_eq, toC_zero, toC_complex, toC_real, ofR_complex, toC_ofR, map_mul, map_add, map_neg, map_sub, map_inv₀, map_div₀, toC_energy, toC_bose, mul_zero, sub_self, neg_zero, sub_zero, add_zero, zero_sub, neg_neg]
    push_cast
    try simp only [z0_tlog_same_mass_eq, z0_tlog_zero_mass_eq, z0_tlog_t_same_mass_eq, z0_tlog_t_zero_mass_eq, ofReal_bose, add_zero]
    try simp only [mul_inv]
    ring_nf
  · intro q om m beta
    rw [toC_thermal_zero_momentum_i_m_m_t_i, toC_thermal_zero_momentum_i_m_m_t_i_same_mass]
    simp only [thermal.zero_momentum.i_m_m_t_i, thermal.zero_momentum.i_m_m_t_i_same_mass, thermal.zero_momentum.i_m_m_l_i, thermal.zero_momentum.i_m_m_l_i_same_mass, zm_r_0_eq, zm_r_0_same_mass_eq, toC_zero, toC_complex, toC_real, ofR_complex, toC_ofR, map_mul, map_add, map_neg, map_sub, map_inv₀, map_div₀, toC_energy, toC_bose, mul_zero, sub_self, neg_zero, sub_zero, add_zero, zero_sub, neg_neg]
    push_cast
    try simp only [z0_tlog_same_mass_eq, z0_tlog_zero_mass_eq, z0_tlog_t_same_mass_eq, z0_tlog_t_zero_mass_eq, ofReal_bose, add_zero]
    try simp only [mul_inv]
    ring_nf
  · intro q om m beta
    rw [toC_thermal_zero_momentum_d_i_m_m_i, toC_thermal_zero_momentum_d_i_m_m_i_same_mass]
    simp only [thermal.zero_momentum.d_i_m_m_i, thermal.zero_momentum.d_i_m_m_i_same_mass, zm_r_0_eq, zm_r_0_same_mass_eq, toC_zero, toC_complex, toC_real, ofR_complex, toC_ofR, map_mul, map_add, map_neg, map_sub, map_inv₀, map_div₀, toC_energy, toC_bose, mul_zero, sub_self, neg_zero, sub_zero, add_zero, zero_sub, neg_neg]
    push_cast
    try simp only [z0_tlog_same_mass_eq, z0_tlog_zero_mass_eq, z0_tlog_t_same_mass_eq, z0_tlog_t_zero_mass_eq, ofReal_bose, add_zero]
    try simp only [mul_inv]
    ring_nf
  · intro q om m beta
    rw [toC_thermal_zero_momentum_d_i_m_m_l_i, toC_thermal_zero_momentum_d_i_m_m_l_i_same_mass]
    simp only [thermal.zero_momentum.d_i_m_m_l_i, thermal.zero_momentum.d_i_m_m_l_i_same_mass, zm_r_0_eq, zm_r_0_same_mass_eq, toC_zero, toC_complex, toC_real, ofR_complex, toC_ofR, map_mul, map_add, map_neg, map_sub, map_inv₀, map_div₀, toC_energy, toC_bose, mul_zero, sub_self, neg_zero, sub_zero, add_zero, zero_sub, neg_neg]
    push_cast
    try simp only [z0_tlog_same_mass_eq, z0_tlog_zero_mass_eq, z0_tlog_t_same_mass_eq, z0_tlog_t_zero_mass_eq, ofReal_bose, add_zero]
    try simp only [mul_inv]
    ring_nf
  · intro q om m beta
    rw [toC_thermal_zero_momentum_d_i_m_m_t_i, toC_thermal_zero_momentum_d_i_m_m_t_i_same_mass]
    simp only [thermal.zero_momentum.d_i_m_m_t_i, thermal.zero_momentum.d_i_m_m_t_i_same_mass, thermal.zero_momentum.d_i_m_m_l_i, thermal.zero_momentum.d_i_m_m_l_i_same_mass, zm_r_0_eq, zm_r_0_same_mass_eq, toC_zero, toC_complex, toC_real, ofR_complex, toC_ofR, map_mul, map_add, map_neg, map_sub, map_inv₀, map_div₀, toC_energy, toC_bose, mul_zero, sub_self, neg_zero, sub_zero, add_zero, zero_sub, neg_neg]
    push_cast
    try simp only [z0_tlog_same_mass_eq, z0_tlog_zero_mass_eq, z0_tlog_t_same_mass_eq, z0_tlog_t_zero_mass_eq, ofReal_bose, add_zero]
    try simp only [mul_inv]
    ring_nf

/-- `thermal.zero_momentum`: the two-mass integrands with the second mass zero are the `m_0` ones. -/
theorem C35_thermal_zero_momentum_second_mass_zero :
    (∀ (q : ℝ) (om : T1) (m : T2) (beta : ℝ), 0 < q →
      thermal.zero_momentum.i_m_m_i q om m (0 : T3) beta =
        thermal.zero_momentum.i_m_0_i q om m beta) ∧
    (∀ (q : ℝ) (om : T1) (m : T2) (beta : ℝ), 0 < q →
      thermal.zero_momentum.i_m_m_l_i q om m (0 : T3) beta =
        thermal.zero_momentum.i_m_0_l_i q om m beta) ∧
    (∀ (q : ℝ) (om : T1) (m : T2) (beta : ℝ), 0 < q →
      thermal.zero_momentum.i_m_m_t_i q om m (0 : T3) beta =
        thermal.zero_momentum.i_m_0_t_i q om m beta) ∧
    (∀ (q : ℝ) (om : T1) (m : T2) (beta : ℝ), 0 < q →
      thermal.zero_momentum.d_i_m_m_i q om m (0 : T3) beta =
        thermal.zero_momentum.d_i_m_0_i q om m beta) ∧
    (∀ (q : ℝ) (om : T1) (m : T2) (beta : ℝ), 0 < q →
      thermal.zero_momentum.d_i_m_m_l_i q om m (0 : T3) beta =
        thermal.zero_momentum.d_i_m_0_l_i q om m beta) ∧
    (∀ (q : ℝ) (om : T1) (m : T2) (beta : ℝ), 0 < q →
      thermal.zero_momentum.d_i_m_m_t_i q om m (0 : T3) beta =
        thermal.zero_momentum.d_i_m_0_t_i q om m beta) := by
  refine ⟨?_, ?_, ?_, ?_, ?_, ?_⟩
  · intro q om m beta hq
    have hq0 : (q : ℂ) ≠ 0 := Complex.ofReal_ne_zero.2 hq.ne'
    rw [toC_thermal_zero_momentum_i_m_m_i, toC_thermal_zero_momentum_i_m_0_i]
    simp only [thermal.zero_momentum.i_m_m_i, thermal.zero_momentum.i_m_0_i, zm_r_0_eq, zm_r_0_same_mass_eq, toC_zero, energy_zero hq.le, ofReal_bose, toC_complex, toC_real, ofR_complex, toC_ofR, map_mul, map_add, map_neg, map_sub, map_inv₀, map_div₀, toC_energy, toC_bose, mul_zero, sub_self, neg_zero, sub_zero, add_zero, zero_sub, neg_neg]
    push_cast
    try simp only [z0_tlog_same_mass_eq, z0_tlog_zero_mass_eq, z0_tlog_t_same_mass_eq, z0_tlog_t_zero_mass_eq, ofReal_bose, add_zero]
    first | (field_simp; done) | (field_simp; ring_nf; done) | (rw [← sub_eq_zero]; ring_nf; field_simp; ring_nf; done) | (ring_nf; field_simp; done) | (field_simp; ring_nf; field_simp; ring_nf; done)
  · intro q om m beta hq
    have hq0 : (q : ℂ) ≠ 0 := Complex.ofReal_ne_zero.2 hq.ne'
    rw [toC_thermal_zero_momentum_i_m_m_l_i, toC_thermal_zero_momentum_i_m_0_l_i]
    simp only [thermal.zero_momentum.i_m_m_l_i, thermal.zero_momentum.i_m_0_l_i, zm_r_0_eq, zm_r_0_same_mass_eq, toC_zero, energy_zero hq.le, ofReal_bose, toC_complex, toC_real, ofR_complex, toC_ofR, map_mul, map_add, map_neg, map_sub, map_inv₀, map_div₀, toC_energy, toC_bose, mul_zero, sub_self, neg_zero, sub_zero, add_zero, zero_sub, neg_neg]
    push_cast
    try simp only [z0_tlog_same_mass_eq, z0_tlog_zero_mass_eq, z0_tlog_t_same_mass_eq, z0_tlog_t_zero_mass_eq, ofReal_bose, add_zero]
    first | (field_simp; done) | (field_simp; ring_nf; done) | (rw [← sub_eq_zero]; ring_nf; field_simp; ring_nf; done) | (ring_nf; field_simp; done) | (field_simp; ring_nf; field_simp; ring_nf; done)
  · intro q om m beta hq
    have hq0 : (q : ℂ) ≠ 0 := Complex.ofReal_ne_zero.2 hq.ne'
    rw [toC_thermal_zero_momentum_i_m_m_t_i, toC_thermal_zero_momentum_i_m_0_t_i]
    simp only [thermal.zero_momentum.i_m_m_t_i, thermal.zero_momentum.i_m_0_t_i, thermal.zero_momentum.i_m_m_l_i, thermal.zero_momentum.i_m_0_l_i, zm_r_0_eq, zm_r_0_same_mass_eq, toC_zero, energy_zero hq.le, ofReal_bose, toC_complex, toC_real, ofR_complex, toC_ofR, map_mul, map_add, map_neg, map_sub, map_inv₀, map_div₀, toC_energy, toC_bose, mul_zero, sub_self, neg_zero, sub_zero, add_zero, zero_sub, neg_neg]
    push_cast
    try simp only [z0_tlog_same_mass_eq, z0_tlog_zero_mass_eq, z0_tlog_t_same_mass_eq, z0_tlog_t_zero_mass_eq, ofReal_bose, add_zero]
    first | (field_simp; done) | (field_simp; ring_nf; done) | (rw [← sub_eq_zero]; ring_nf; field_simp; ring_nf; done) | (ring_nf; field_simp; done) | (field_simp; ring_nf; field_simp; ring_nf; done)
  · intro q om m beta hq
    have hq0 : (q : ℂ) ≠ 0 := Complex.ofReal_ne_zero.2 hq.ne'
    rw [toC_thermal_zero_momentum_d_i_m_m_i, toC_thermal_zero_momentum_d_i_m_0_i]
    simp only [thermal.zero_momentum.d_i_m_m_i, thermal.zero_momentum.d_i_m_0_i, zm_r_0_eq, zm_r_0_same_mass_eq, toC_zero, energy_zero hq.le, ofReal_bose, toC_complex, toC_real, ofR_complex, toC_ofR, map_mul, map_add, map_neg, map_sub, map_inv₀, map_div₀, toC_energy, toC_bose, mul_zero, sub_self, neg_zero, sub_zero, add_zero, zero_sub, neg_neg]
    push_cast
    try simp only [z0_tlog_same_mass_eq, z0_tlog_zero_mass_eq, z0_tlog_t_same_mass_eq, z0_tlog_t_zero_mass_eq, ofReal_bose, add_zero]
    first | (field_simp; done) | (field_simp; ring_nf; done) | (rw [← sub_eq_zero]; ring_nf; field_simp; ring_nf; done) | (ring_nf; field_simp; done) | (field_simp; ring_nf; field_simp; ring_nf; done)
  · intro q om m beta hq
    have hq0 : (q : ℂ) ≠ 0 := Complex.ofReal_ne_zero.2 hq.ne'
    rw [toC_thermal_zero_momentum_d_i_m_m_l_i, toC_thermal_zero_momentum_d_i_m_0_l_i]
    simp only [thermal.zero_momentum.d_i_m_m_l_i, thermal.zero_momentum.d_i_m_0_l_i, zm_r_0_eq, zm_r_0_same_mass_eq, toC_zero, energy_zero hq.le, ofReal_bose, toC_complex, toC_real, ofR_complex, toC_ofR, map_mul, map_add, map_neg, map_sub, map_inv₀, map_div₀, toC_energy, toC_bose, mul_zero, sub_self, neg_zero, sub_zero, add_zero, zero_sub, neg_neg]
    push_cast
    try simp only [z0_tlog_same_mass_eq, z0_tlog_zero_mass_eq, z0_tlog_t_same_mass_eq, z0_tlog_t_zero_mass_eq, ofReal_bose, add_zero]
    first | (field_simp; done) | (field_simp; ring_nf; done) | (rw [← sub_eq_zero]; ring_nf; field_simp; ring_nf; done) | (ring_nf; field_simp; done) | (field_simp; ring_nf; field_simp; ring_nf; done)
  · intro q om m beta hq
    have hq0 : (q : ℂ) ≠ 0 := Complex.ofReal_ne_zero.2 hq.ne'
    rw [toC_thermal_zero_momentum_d_i_m_m_t_i, toC_thermal_zero_momentum_d_i_m_0_t_i]
    simp only [thermal.zero_momentum.d_i_m_m_t_i, thermal.zero_momentum.d_i_m_0_t_i, thermal.zero_momentum.d_i_m_m_l_i, thermal.zero_momentum.d_i_m_0_l_i, zm_r_0_eq, zm_r_0_same_mass_eq, toC_zero, energy_zero hq.le, ofReal_bose, toC_complex, toC_real, ofR_complex, toC_ofR, map_mul, map_add, map_neg, map_sub, map_inv₀, map_div₀, toC_energy, toC_bose, mul_zero, sub_self, neg_zero, sub_zero, add_zero, zero_sub, neg_neg]
    push_cast
    try simp only [z0_tlog_same_mass_eq, z0_tlog_zero_mass_eq, z0_tlog_t_same_mass_eq, z0_tlog_t_zero_mass_eq, ofReal_bose, add_zero]
    first | (field_simp; done) | (field_simp; ring_nf; done) | (rw [← sub_eq_zero]; ring_nf; field_simp; ring_nf; done) | (ring_nf; field_simp; done) | (field_simp; ring_nf; field_simp; ring_nf; done)

/-- `thermal.zero_momentum`: the `m_0` integrands at mass zero are the `0_0` ones. -/
theorem C35_thermal_zero_momentum_zero_mass :
    (∀ (q : ℝ) (om : T1) (beta : ℝ), 0 < q →
      thermal.zero_momentum.i_m_0_i q om (0 : T2) beta =
        thermal.zero_momentum.i_0_0_i q om beta) ∧
    (∀ (q : ℝ) (om : T1) (beta : ℝ), 0 < q →
      thermal.zero_momentum.i_m_0_l_i q om (0 : T2) beta =
        thermal.zero_momentum.i_0_0_l_i q om beta) ∧
    (∀ (q : ℝ) (om : T1) (beta : ℝ), 0 < q →
      thermal.zero_momentum.i_m_0_t_i q om (0 : T2) beta =
        thermal.zero_momentum.i_0_0_t_i q om beta) ∧
    (∀ (q : ℝ) (om : T1) (beta : ℝ), 0 < q →
      thermal.zero_momentum.d_i_m_0_i q om (0 : T2) beta =
        thermal.zero_momentum.d_i_0_0_i q om beta) ∧
    (∀ (q : ℝ) (om : T1) (beta : ℝ), 0 < q →
      thermal.zero_momentum.d_i_m_0_l_i q om (0 : T2) beta =
        thermal.zero_momentum.d_i_0_0_l_i q om beta) ∧
    (∀ (q : ℝ) (om : T1) (beta : ℝ), 0 < q →
      thermal.zero_momentum.d_i_m_0_t_i q om (0 : T2) beta =
        thermal.zero_momentum.d_i_0_0_t_i q om beta) := by
  refine ⟨?_, ?_, ?_, ?_, ?_, ?_⟩
  · intro q om beta hq
    have hq0 : (q : ℂ) ≠ 0 := Complex.ofReal_ne_zero.2 hq.ne'
    rw [toC_thermal_zero_momentum_i_m_0_i, toC_thermal_zero_momentum_i_0_0_i]
    simp only [thermal.zero_momentum.i_m_0_i, thermal.zero_momentum.i_0_0_i, zm_r_0_eq, zm_r_0_same_mass_eq, toC_zero, energy_zero hq.le, ofReal_bose, toC_complex, toC_real, ofR_complex, toC_ofR, map_mul, map_add, map_neg, map_sub, map_inv₀, map_div₀, toC_energy, toC_bose, mul_zero, sub_self, neg_zero, sub_zero, add_zero, zero_sub, neg_neg]
    push_cast
    try simp only [z0_tlog_same_mass_eq, z0_tlog_zero_mass_eq, z0_tlog_t_same_mass_eq, z0_tlog_t_zero_mass_eq, ofReal_bose, add_zero]
    first | (field_simp; done) | (field_simp; ring_nf; done) | (rw [← sub_eq_zero]; ring_nf; field_simp; ring_nf; done) | (ring_nf; field_simp; done) | (field_simp; ring_nf; field_simp; ring_nf; done)
  · intro q om beta hq
    have hq0 : (q : ℂ) ≠ 0 := Complex.ofReal_ne_zero.2 hq.ne'
    rw [toC_thermal_zero_momentum_i_m_0_l_i, toC_thermal_zero_momentum_i_0_0_l_i]
    simp only [thermal.zero_momentum.i_m_0_l_i, thermal.zero_momentum.i_0_0_l_i, zm_r_0_eq, zm_r_0_same_mass_eq, toC_zero, energy_zero hq.le, ofReal_bose, toC_complex, toC_real, ofR_complex, toC_ofR, map_mul, map_add, map_neg, map_sub, map_inv₀, map_div₀, toC_energy, toC_bose, mul_zero, sub_self, neg_zero, sub_zero, add_zero, zero_sub, neg_neg]
    push_cast
    try simp only [z0_tlog_same_mass_eq, z0_tlog_zero_mass_eq, z0_tlog_t_same_mass_eq, z0_tlog_t_zero_mass_eq, ofReal_bose, add_zero]
    first | (field_simp; done) | (field_simp; ring_nf; done) | (rw [← sub_eq_zero]; ring_nf; field_simp; ring_nf; done) | (ring_nf; field_simp; done) | (field_simp; ring_nf; field_simp; ring_nf; done)
  · intro q om beta hq
    have hq0 : (q : ℂ) ≠ 0 := Complex.ofReal_ne_zero.2 hq.ne'
    rw [toC_thermal_zero_momentum_i_m_0_t_i, toC_thermal_zero_momentum_i_0_0_t_i]
    simp only [thermal.zero_momentum.i_m_0_t_i, thermal.zero_momentum.i_0_0_t_i, thermal.zero_momentum.i_m_0_l_i, thermal.zero_momentum.i_0_0_l_i, zm_r_0_eq, zm_r_0_same_mass_eq, toC_zero, energy_zero hq.le, ofReal_bose, toC_complex, toC_real, ofR_complex, toC_ofR, map_mul, map_add, map_neg, map_sub, map_inv₀, map_div₀, toC_energy, toC_bose, mul_zero, sub_self, neg_zero, sub_zero, add_zero, zero_sub, neg_neg]
    push_cast
    try simp only [z0_tlog_same_mass_eq, z0_tlog_zero_mass_eq, z0_tlog_t_same_mass_eq, z0_tlog_t_zero_mass_eq, ofReal_bose, add_zero]
    first | (field_simp; done) | (field_simp; ring_nf; done) | (rw [← sub_eq_zero]; ring_nf; field_simp; ring_nf; done) | (ring_nf; field_simp; done) | (field_simp; ring_nf; field_simp; ring_nf; done)
  · intro q om beta hq
    have hq0 : (q : ℂ) ≠ 0 := Complex.ofReal_ne_zero.2 hq.ne'
    rw [toC_thermal_zero_momentum_d_i_m_0_i, toC_thermal_zero_momentum_d_i_0_0_i]
    simp only [thermal.zero_momentum.d_i_m_0_i, thermal.zero_momentum.d_i_0_0_i, zm_r_0_eq, zm_r_0_same_mass_eq, toC_zero, energy_zero hq.le, ofReal_bose, toC_complex, toC_real, ofR_complex, toC_ofR, map_mul, map_add, map_neg, map_sub, map_inv₀, map_div₀, toC_energy, toC_bose, mul_zero, sub_self, neg_zero, sub_zero, add_zero, zero_sub, neg_neg]
    push_cast
    try simp only [z0_tlog_same_mass_eq, z0_tlog_zero_mass_eq, z0_tlog_t_same_mass_eq, z0_tlog_t_zero_mass_eq, ofReal_bose, add_zero]
    first | (field_simp; done) | (field_simp; ring_nf; done) | (rw [← sub_eq_zero]; ring_nf; field_simp; ring_nf; done) | (ring_nf; field_simp; done) | (field_simp; ring_nf; field_simp; ring_nf; done)
  · intro q om beta hq
    have hq0 : (q : ℂ) ≠ 0 := Complex.ofReal_ne_zero.2 hq.ne'
    rw [toC_thermal_zero_momentum_d_i_m_0_l_i, toC_thermal_zero_momentum_d_i_0_0_l_i]
    simp only [thermal.zero_momentum.d_i_m_0_l_i, thermal.zero_momentum.d_i_0_0_l_i, zm_r_0_eq, zm_r_0_same_mass_eq, toC_zero, energy_zero hq.le, ofReal_bose, toC_complex, toC_real, ofR_complex, toC_ofR, map_mul, map_add, map_neg, map_sub, map_inv₀, map_div₀, toC_energy, toC_bose, mul_zero, sub_self, neg_zero, sub_zero, add_zero, zero_sub, neg_neg]
    push_cast
    try simp only [z0_tlog_same_mass_eq, z0_tlog_zero_mass_eq, z0_tlog_t_same_mass_eq, z0_tlog_t_zero_mass_eq, ofReal_bose, add_zero]
    first | (field_simp; done) | (field_simp; ring_nf; done) | (rw [← sub_eq_zero]; ring_nf; field_simp; ring_nf; done) | (ring_nf; field_simp; done) | (field_simp; ring_nf; field_simp; ring_nf; done)
  · intro q om beta hq
    have hq0 : (q : ℂ) ≠ 0 := Complex.ofReal_ne_zero.2 hq.ne'
    rw [toC_thermal_zero_momentum_d_i_m_0_t_i, toC_thermal_zero_momentum_d_i_0_0_t_i]
    simp only [thermal.zero_momentum.d_i_m_0_t_i, thermal.zero_momentum.d_i_0_0_t_i, thermal.zero_momentum.d_i_m_0_l_i, thermal.zero_momentum.d_i_0_0_l_i, zm_r_0_eq, zm_r_0_same_mass_eq, toC_zero, energy_zero hq.le, ofReal_bose, toC_complex, toC_real, ofR_complex, toC_ofR, map_mul, map_add, map_neg, map_sub, map_inv₀, map_div₀, toC_energy, toC_bose, mul_zero, sub_self, neg_zero, sub_zero, add_zero, zero_sub, neg_neg]
    push_cast
    try simp only [z0_tlog_same_mass_eq, z0_tlog_zero_mass_eq, z0_tlog_t_same_mass_eq, z0_tlog_t_zero_mass_eq, ofReal_bose, add_zero]
    first | (field_simp; done) | (field_simp; ring_nf; done) | (rw [← sub_eq_zero]; ring_nf; field_simp; ring_nf; done) | (ring_nf; field_simp; done) | (field_simp; ring_nf; field_simp; ring_nf; done)

/-- `thermal.zero_matsubara`: at equal masses the two-mass integrands are the `_same_mass` ones. -/
theorem C35_thermal_zero_matsubara_same_mass :
    (∀ (q : ℝ) (p : ℝ) (m : T2) (beta : ℝ),
      thermal.zero_matsubara.i_m_m_i q p m m beta =
        toC (thermal.zero_matsubara.i_m_m_i_same_mass q p m beta)) ∧
    (∀ (q : ℝ) (p : ℝ) (m : T2) (beta : ℝ),
      thermal.zero_matsubara.i_m_m_l_i q p m m beta =
        toC (thermal.zero_matsubara.i_m_m_l_i_same_mass q p m beta)) ∧
    (∀ (q : ℝ) (p : ℝ) (m : T2) (beta : ℝ),
      thermal.zero_matsubara.i_m_m_t_i q p m m beta =
        toC (thermal.zero_matsubara.i_m_m_t_i_same_mass q p m beta)) ∧
    (∀ (q : ℝ) (p : ℝ) (m : T2) (beta : ℝ),
      thermal.zero_matsubara.d_i_m_m_i q p m m beta =
        toC (thermal.zero_matsubara.d_i_m_m_i_same_mass q p m beta)) ∧
    (∀ (q : ℝ) (p : ℝ) (m : T2) (beta : ℝ),
      thermal.zero_matsubara.d_i_m_m_l_i q p m m beta =
        toC (thermal.zero_matsubara.d_i_m_m_l_i_same_mass q p m beta)) ∧
    (∀ (q : ℝ) (p : ℝ) (m : T2) (beta : ℝ),
      thermal.zero_matsubara.d_i_m_m_t_i q p m m beta =
        toC (thermal.zero_matsubara.d_i_m_m_t_i_same_mass q p m beta)) := by
  refine ⟨?_, ?_, ?_, ?_, ?_, ?_⟩
  · intro q p m beta
    rw [toC_thermal_zero_matsubara_i_m_m_i, toC_thermal_zero_matsubara_i_m_m_i_same_mass]
    simp only [thermal.zero_matsubara.i_m_m_i, thermal.zero_matsubara.i_m_m_i_same_mass, z0_r_0_C, z0_r_0_eq, z0_tlog_eq, z0_tlog_t_eq, toC_zero, toC_complex, toC_real, ofR_complex, toC_ofR, map_mul, map_add, map_neg, map_sub, map_inv₀, map_div₀, toC_energy, toC_bose, mul_zero, sub_self, neg_zero, sub_zero, add_zero, zero_sub, neg_neg]
    push_cast
    try simp only [z0_tlog_same_mass_eq, z0_tlog_zero_mass_eq, z0_tlog_t_same_mass_eq, z0_tlog_t_zero_mass_eq, ofReal_bose, add_zero]
    try simp only [mul_inv]
    ring_nf
  · intro q p m beta
    rw [toC_thermal_zero_matsubara_i_m_m_l_i, toC_thermal_zero_matsubara_i_m_m_l_i_same_mass]
    simp only [thermal.zero_matsubara.i_m_m_l_i, thermal.zero_matsubara.i_m_m_l_i_same_mass, z0_r_0_C, z0_r_0_eq, z0_tlog_eq, z0_tlog_t_eq, toC_zero, toC_complex, toC_real, ofR_complex, toC_ofR, map_mul, map_add, map_neg, map_sub, map_inv₀, map_div₀, toC_energy, toC_bose, mul_zero, sub_self, neg_zero, sub_zero, add_zero, zero_sub, neg_neg]
    push_cast
    try simp only [z0_tlog_same_mass_eq, z0_tlog_zero_mass_eq, z0_tlog_t_same_mass_eq, z0_tlog_t_zero_mass_eq, ofReal_bose, add_zero]
    try simp only [mul_inv]
    ring_nf
  · intro q p m beta
    rw [toC_thermal_zero_matsubara_i_m_m_t_i, toC_thermal_zero_matsubara_i_m_m_t_i_same_mass]
    simp only [thermal.zero_matsubara.i_m_m_t_i, thermal.zero_matsubara.i_m_m_t_i_same_mass, z0_r_0_C, z0_r_0_eq, z0_tlog_eq, z0_tlog_t_eq, toC_zero, toC_complex, toC_real, ofR_complex, toC_ofR, map_mul, map_add, map_neg, map_sub, map_inv₀, map_div₀, toC_energy, toC_bose, mul_zero, sub_self, neg_zero, sub_zero, add_zero, zero_sub, neg_neg]
    push_cast
    try simp only [z0_tlog_same_mass_eq, z0_tlog_zero_mass_eq, z0_tlog_t_same_mass_eq, z0_tlog_t_zero_mass_eq, ofReal_bose, add_zero]
    try simp only [mul_inv]
    ring_nf
  · intro q p m beta
    rw [toC_thermal_zero_matsubara_d_i_m_m_i, toC_thermal_zero_matsubara_d_i_m_m_i_same_mass]
    simp only [thermal.zero_matsubara.d_i_m_m_i, thermal.zero_matsubara.d_i_m_m_i_same_mass, z0_r_0_C, z0_r_0_eq, z0_tlog_eq, z0_tlog_t_eq, toC_zero, toC_complex, toC_real, ofR_complex, toC_ofR, map_mul, map_add, map_neg, map_sub, map_inv₀, map_div₀, toC_energy, toC_bose, mul_zero, sub_self, neg_zero, sub_zero, add_zero, zero_sub, neg_neg]
    push_cast
    try simp only [z0_tlog_same_mass_eq, z0_tlog_zero_mass_eq, z0_tlog_t_same_mass_eq, z0_tlog_t_zero_mass_eq, ofReal_bose, add_zero]
    have e1 : ((p : ℂ) * p + q * p * 2)⁻¹ = (p : ℂ)⁻¹ * ((q : ℂ) * 2 + p)⁻¹ := by rw [← mul_inv]; ring_nf
    have e2 : ((p : ℂ) * p - q * p * 2)⁻¹ = (p : ℂ)⁻¹ * (2 * -(q : ℂ) + p)⁻¹ := by rw [← mul_inv]; ring_nf
    ring_nf at e1 e2
    first | (ring_nf; done) | (ring_nf; rw [e1, e2]; ring_nf)
  · intro q p m beta
    rw [toC_thermal_zero_matsubara_d_i_m_m_l_i, toC_thermal_zero_matsubara_d_i_m_m_l_i_same_mass]
    simp only [thermal.zero_matsubara.d_i_m_m_l_i, thermal.zero_matsubara.d_i_m_m_l_i_same_mass, z0_r_0_C, z0_r_0_eq, z0_tlog_eq, z0_tlog_t_eq, toC_zero, toC_complex, toC_real, ofR_complex, toC_ofR, map_mul, map_add, map_neg, map_sub, map_inv₀, map_div₀, toC_energy, toC_bose, mul_zero, sub_self, neg_zero, sub_zero, add_zero, zero_sub, neg_neg]
    push_cast
    try simp only [z0_tlog_same_mass_eq, z0_tlog_zero_mass_eq, z0_tlog_t_same_mass_eq, z0_tlog_t_zero_mass_eq, ofReal_bose, add_zero]
    have e1 : ((p : ℂ) * p + q * p * 2)⁻¹ = (p : ℂ)⁻¹ * ((q : ℂ) * 2 + p)⁻¹ := by rw [← mul_inv]; ring_nf
    have e2 : ((p : ℂ) * p - q * p * 2)⁻¹ = (p : ℂ)⁻¹ * (2 * -(q : ℂ) + p)⁻¹ := by rw [← mul_inv]; ring_nf
    ring_nf at e1 e2
    first | (ring_nf; done) | (ring_nf; rw [e1, e2]; ring_nf)
  · intro q p m beta
    rw [toC_thermal_zero_matsubara_d_i_m_m_t_i, toC_thermal_zero_matsubara_d_i_m_m_t_i_same_mass]
    simp only [thermal.zero_matsubara.d_i_m_m_t_i, thermal.zero_matsubara.d_i_m_m_t_i_same_mass, z0_r_0_C, z0_r_0_eq, z0_tlog_eq, z0_tlog_t_eq, toC_zero, toC_complex, toC_real, ofR_complex, toC_ofR, map_mul, map_add, map_neg, map_sub, map_inv₀, map_div₀, toC_energy, toC_bose, mul_zero, sub_self, neg_zero, sub_zero, add_zero, zero_sub, neg_neg]
    push_cast
    try simp only [z0_tlog_same_mass_eq, z0_tlog_zero_mass_eq, z0_tlog_t_same_mass_eq, z0_tlog_t_zero_mass_eq, ofReal_bose, add_zero]
    have e1 : ((p : ℂ) * p + q * p * 2)⁻¹ = (p : ℂ)⁻¹ * ((q : ℂ) * 2 + p)⁻¹ := by rw [← mul_inv]; ring_nf
    have e2 : ((p : ℂ) * p - q * p * 2)⁻¹ = (p : ℂ)⁻¹ * (2 * -(q : ℂ) + p)⁻¹ := by rw [← mul_inv]; ring_nf
    ring_nf at e1 e2
    first | (ring_nf; done) | (ring_nf; rw [e1, e2]; ring_nf)

/-- `thermal.zero_matsubara`: the two-mass integrands with the second mass zero are the `m_0` ones. -/
theorem C35_thermal_zero_matsubara_second_mass_zero :
    (∀ (q : ℝ) (p : ℝ) (m : T2) (beta : ℝ), 0 < q →
      thermal.zero_matsubara.i_m_m_i q p m (0 : T3) beta =
        thermal.zero_matsubara.i_m_0_i q p m beta) ∧
    (∀ (q : ℝ) (p : ℝ) (m : T2) (beta : ℝ), 0 < q →
      thermal.zero_matsubara.i_m_m_l_i q p m (0 : T3) beta =
        thermal.zero_matsubara.i_m_0_l_i q p m beta) ∧
    (∀ (q : ℝ) (p : ℝ) (m : T2) (beta : ℝ), 0 < q →
      thermal.zero_matsubara.i_m_m_t_i q p m (0 : T3) beta =
        thermal.zero_matsubara.i_m_0_t_i q p m beta) ∧
    (∀ (q : ℝ) (p : ℝ) (m : T2) (beta : ℝ), 0 < q →
      thermal.zero_matsubara.d_i_m_m_i q p m (0 : T3) beta =
        toC (thermal.zero_matsubara.d_i_m_0_i q p m beta)) ∧
    (∀ (q : ℝ) (p : ℝ) (m : T2) (beta : ℝ), 0 < q →
      thermal.zero_matsubara.d_i_m_m_l_i q p m (0 : T3) beta =
        toC (thermal.zero_matsubara.d_i_m_0_l_i q p m beta)) ∧
    (∀ (q : ℝ) (p : ℝ) (m : T2) (beta : ℝ), 0 < q →
      thermal.zero_matsubara.d_i_m_m_t_i q p m (0 : T3) beta =
        thermal.zero_matsubara.d_i_m_0_t_i q p m beta) := by
  refine ⟨?_, ?_, ?_, ?_, ?_, ?_⟩
  · intro q p m beta hq
    have hq0 : (q : ℂ) ≠ 0 := Complex.ofReal_ne_zero.2 hq.ne'
    rw [toC_thermal_zero_matsubara_i_m_m_i, toC_thermal_zero_matsubara_i_m_0_i]
    simp only [thermal.zero_matsubara.i_m_m_i, thermal.zero_matsubara.i_m_0_i, z0_r_0_C, z0_r_0_eq, z0_tlog_eq, z0_tlog_t_eq, toC_zero, energy_zero hq.le, ofReal_bose, toC_complex, toC_real, ofR_complex, toC_ofR, map_mul, map_add, map_neg, map_sub, map_inv₀, map_div₀, toC_energy, toC_bose, mul_zero, sub_self, neg_zero, sub_zero, add_zero, zero_sub, neg_neg]
    push_cast
    try simp only [z0_tlog_same_mass_eq, z0_tlog_zero_mass_eq, z0_tlog_t_same_mass_eq, z0_tlog_t_zero_mass_eq, ofReal_bose, add_zero]
    first | (field_simp; done) | (field_simp; ring_nf; done) | (rw [← sub_eq_zero]; ring_nf; field_simp; ring_nf; done) | (ring_nf; field_simp; done) | (field_simp; ring_nf; field_simp; ring_nf; done)
  · intro q p m beta hq
    have hq0 : (q : ℂ) ≠ 0 := Complex.ofReal_ne_zero.2 hq.ne'
    rw [toC_thermal_zero_matsubara_i_m_m_l_i, toC_thermal_zero_matsubara_i_m_0_l_i]
    simp only [thermal.zero_matsubara.i_m_m_l_i, thermal.zero_matsubara.i_m_0_l_i, z0_r_0_C, z0_r_0_eq, z0_tlog_eq, z0_tlog_t_eq, toC_zero, energy_zero hq.le, ofReal_bose, toC_complex, toC_real, ofR_complex, toC_ofR, map_mul, map_add, map_neg, map_sub, map_inv₀, map_div₀, toC_energy, toC_bose, mul_zero, sub_self, neg_zero, sub_zero, add_zero, zero_sub, neg_neg]
    push_cast
    try simp only [z0_tlog_same_mass_eq, z0_tlog_zero_mass_eq, z0_tlog_t_same_mass_eq, z0_tlog_t_zero_mass_eq, ofReal_bose, add_zero]
    first | (field_simp; done) | (field_simp; ring_nf; done) | (rw [← sub_eq_zero]; ring_nf; field_simp; ring_nf; done) | (ring_nf; field_simp; done) | (field_simp; ring_nf; field_simp; ring_nf; done)
  · intro q p m beta hq
    have hq0 : (q : ℂ) ≠ 0 := Complex.ofReal_ne_zero.2 hq.ne'
    rw [toC_thermal_zero_matsubara_i_m_m_t_i, toC_thermal_zero_matsubara_i_m_0_t_i]
    simp only [thermal.zero_matsubara.i_m_m_t_i, thermal.zero_matsubara.i_m_0_t_i, z0_r_0_C, z0_r_0_eq, z0_tlog_eq, z0_tlog_t_eq, toC_zero, energy_zero hq.le, ofReal_bose, toC_complex, toC_real, ofR_complex, toC_ofR, map_mul, map_add, map_neg, map_sub, map_inv₀, map_div₀, toC_energy, toC_bose, mul_zero, sub_self, neg_zero, sub_zero, add_zero, zero_sub, neg_neg]
    push_cast
    try simp only [z0_tlog_same_mass_eq, z0_tlog_zero_mass_eq, z0_tlog_t_same_mass_eq, z0_tlog_t_zero_mass_eq, ofReal_bose, add_zero]
    first | (field_simp; done) | (field_simp; ring_nf; done) | (rw [← sub_eq_zero]; ring_nf; field_simp; ring_nf; done) | (ring_nf; field_simp; done) | (field_simp; ring_nf; field_simp; ring_nf; done)
  · intro q p m beta hq
    have hq0 : (q : ℂ) ≠ 0 := Complex.ofReal_ne_zero.2 hq.ne'
    rw [toC_thermal_zero_matsubara_d_i_m_m_i, toC_thermal_zero_matsubara_d_i_m_0_i]
    simp only [thermal.zero_matsubara.d_i_m_m_i, thermal.zero_matsubara.d_i_m_0_i, z0_r_0_C, z0_r_0_eq, z0_tlog_eq, z0_tlog_t_eq, toC_zero, energy_zero hq.le, ofReal_bose, toC_complex, toC_real, ofR_complex, toC_ofR, map_mul, map_add, map_neg, map_sub, map_inv₀, map_div₀, toC_energy, toC_bose, mul_zero, sub_self, neg_zero, sub_zero, add_zero, zero_sub, neg_neg]
    push_cast
    try simp only [z0_tlog_same_mass_eq, z0_tlog_zero_mass_eq, z0_tlog_t_same_mass_eq, z0_tlog_t_zero_mass_eq, ofReal_bose, add_zero]
    first | (field_simp; done) | (field_simp; ring_nf; done) | (rw [← sub_eq_zero]; ring_nf; field_simp; ring_nf; done) | (ring_nf; field_simp; done) | (field_simp; ring_nf; field_simp; ring_nf; done)
  · intro q p m beta hq
    have hq0 : (q : ℂ) ≠ 0 := Complex.ofReal_ne_zero.2 hq.ne'
    rw [toC_thermal_zero_matsubara_d_i_m_m_l_i, toC_thermal_zero_matsubara_d_i_m_0_l_i]
    simp only [thermal.zero_matsubara.d_i_m_m_l_i, thermal.zero_matsubara.d_i_m_0_l_i, z0_r_0_C, z0_r_0_eq, z0_tlog_eq, z0_tlog_t_eq, toC_zero, energy_zero hq.le, ofReal_bose, toC_complex, toC_real, ofR_complex, toC_ofR, map_mul, map_add, map_neg, map_sub, map_inv₀, map_div₀, toC_energy, toC_bose, mul_zero, sub_self, neg_zero, sub_zero, add_zero, zero_sub, neg_neg]
    push_cast
    try simp only [z0_tlog_same_mass_eq, z0_tlog_zero_mass_eq, z0_tlog_t_same_mass_eq, z0_tlog_t_zero_mass_eq, ofReal_bose, add_zero]
    first | (field_simp; done) | (field_simp; ring_nf; done) | (rw [← sub_eq_zero]; ring_nf; field_simp; ring_nf; done) | (ring_nf; field_simp; done) | (field_simp; ring_nf; field_simp; ring_nf; done)
  · intro q p m beta hq
    have hq0 : (q : ℂ) ≠ 0 := Complex.ofReal_ne_zero.2 hq.ne'
    rw [toC_thermal_zero_matsubara_d_i_m_m_t_i, toC_thermal_zero_matsubara_d_i_m_0_t_i]
    simp only [thermal.zero_matsubara.d_i_m_m_t_i, thermal.zero_matsubara.d_i_m_0_t_i, z0_r_0_C, z0_r_0_eq, z0_tlog_eq, z0_tlog_t_eq, toC_zero, energy_zero hq.le, ofReal_bose, toC_complex, toC_real, ofR_complex, toC_ofR, map_mul, map_add, map_neg, map_sub, map_inv₀, map_div₀, toC_energy, toC_bose, mul_zero, sub_self, neg_zero, sub_zero, add_zero, zero_sub, neg_neg]
    push_cast
    try simp only [z0_tlog_same_mass_eq, z0_tlog_zero_mass_eq, z0_tlog_t_same_mass_eq, z0_tlog_t_zero_mass_eq, ofReal_bose, add_zero]
    first | (field_simp; done) | (field_simp; ring_nf; done) | (rw [← sub_eq_zero]; ring_nf; field_simp; ring_nf; done) | (ring_nf; field_simp; done) | (field_simp; ring_nf; field_simp; ring_nf; done)

/-- `thermal.zero_matsubara`: the `m_0` integrands at mass zero are the `0_0` ones. -/
theorem C35_thermal_zero_matsubara_zero_mass :
    (∀ (q : ℝ) (p : ℝ) (beta : ℝ), 0 < q →
      thermal.zero_matsubara.i_m_0_i q p (0 : T2) beta =
        ((thermal.zero_matsubara.i_0_0_i q p beta : ℝ) : ℂ)) ∧
    (∀ (q : ℝ) (p : ℝ) (beta : ℝ), 0 < q →
      thermal.zero_matsubara.i_m_0_l_i q p (0 : T2) beta =
        ((thermal.zero_matsubara.i_0_0_l_i q p beta : ℝ) : ℂ)) ∧
    (∀ (q : ℝ) (p : ℝ) (beta : ℝ), 0 < q →
      thermal.zero_matsubara.i_m_0_t_i q p (0 : T2) beta =
        ((thermal.zero_matsubara.i_0_0_t_i q p beta : ℝ) : ℂ)) ∧
    (∀ (q : ℝ) (p : ℝ) (beta : ℝ), 0 < q →
      toC (thermal.zero_matsubara.d_i_m_0_i q p (0 : T2) beta) =
        ((thermal.zero_matsubara.d_i_0_0_i q p beta : ℝ) : ℂ)) ∧
    (∀ (q : ℝ) (p : ℝ) (beta : ℝ), 0 < q →
      toC (thermal.zero_matsubara.d_i_m_0_l_i q p (0 : T2) beta) =
        ((thermal.zero_matsubara.d_i_0_0_l_i q p beta : ℝ) : ℂ)) ∧
    (∀ (q : ℝ) (p : ℝ) (beta : ℝ), 0 < q →
      thermal.zero_matsubara.d_i_m_0_t_i q p (0 : T2) beta =
        ((thermal.zero_matsubara.d_i_0_0_t_i q p beta : ℝ) : ℂ)) := by
  refine ⟨?_, ?_, ?_, ?_, ?_, ?_⟩
  · intro q p beta hq
    have hq0 : (q : ℂ) ≠ 0 := Complex.ofReal_ne_zero.2 hq.ne'
    rw [toC_thermal_zero_matsubara_i_m_0_i]
    simp only [thermal.zero_matsubara.i_m_0_i, thermal.zero_matsubara.i_0_0_i, z0_r_0_C, z0_r_0_eq, z0_tlog_eq, z0_tlog_t_eq, toC_zero, energy_zero hq.le, ofReal_bose, toC_complex, toC_real, ofR_complex, toC_ofR, map_mul, map_add, map_neg, map_sub, map_inv₀, map_div₀, toC_energy, toC_bose, mul_zero, sub_self, neg_zero, sub_zero, add_zero, zero_sub, neg_neg]
    push_cast
    try simp only [z0_tlog_same_mass_eq, z0_tlog_zero_mass_eq, z0_tlog_t_same_mass_eq, z0_tlog_t_zero_mass_eq, ofReal_bose, add_zero]
    first | (field_simp; done) | (field_simp; ring_nf; done) | (rw [← sub_eq_zero]; ring_nf; field_simp; ring_nf; done) | (ring_nf; field_simp; done) | (field_simp; ring_nf; field_simp; ring_nf; done)
  · intro q p beta hq
    have hq0 : (q : ℂ) ≠ 0 := Complex.ofReal_ne_zero.2 hq.ne'
    rw [toC_thermal_zero_matsubara_i_m_0_l_i]
    simp only [thermal.zero_matsubara.i_m_0_l_i, thermal.zero_matsubara.i_0_0_l_i, z0_r_0_C, z0_r_0_eq, z0_tlog_eq, z0_tlog_t_eq, toC_zero, energy_zero hq.le, ofReal_bose, toC_complex, toC_real, ofR_complex, toC_ofR, map_mul, map_add, map_neg, map_sub, map_inv₀, map_div₀, toC_energy, toC_bose, mul_zero, sub_self, neg_zero, sub_zero, add_zero, zero_sub, neg_neg]
    push_cast
    try simp only [z0_tlog_same_mass_eq, z0_tlog_zero_mass_eq, z0_tlog_t_same_mass_eq, z0_tlog_t_zero_mass_eq, ofReal_bose, add_zero]
    first | (field_simp; done) | (field_simp; ring_nf; done) | (rw [← sub_eq_zero]; ring_nf; field_simp; ring_nf; done) | (ring_nf; field_simp; done) | (field_simp; ring_nf; field_simp; ring_nf; done)
  · intro q p beta hq
    have hq0 : (q : ℂ) ≠ 0 := Complex.ofReal_ne_zero.2 hq.ne'
    rw [toC_thermal_zero_matsubara_i_m_0_t_i]
    simp only [thermal.zero_matsubara.i_m_0_t_i, thermal.zero_matsubara.i_0_0_t_i, z0_r_0_C, z0_r_0_eq, z0_tlog_eq, z0_tlog_t_eq, toC_zero, energy_zero hq.le, ofReal_bose, toC_complex, toC_real, ofR_complex, toC_ofR, map_mul, map_add, map_neg, map_sub, map_inv₀, map_div₀, toC_energy, toC_bose, mul_zero, sub_self, neg_zero, sub_zero, add_zero, zero_sub, neg_neg]
    push_cast
    try simp only [z0_tlog_same_mass_eq, z0_tlog_zero_mass_eq, z0_tlog_t_same_mass_eq, z0_tlog_t_zero_mass_eq, ofReal_bose, add_zero]
    first | (field_simp; done) | (field_simp; ring_nf; done) | (rw [← sub_eq_zero]; ring_nf; field_simp; ring_nf; done) | (ring_nf; field_simp; done) | (field_simp; ring_nf; field_simp; ring_nf; done)
  · intro q p beta hq
    have hq0 : (q : ℂ) ≠ 0 := Complex.ofReal_ne_zero.2 hq.ne'
    rw [toC_thermal_zero_matsubara_d_i_m_0_i]
    simp only [thermal.zero_matsubara.d_i_m_0_i, thermal.zero_matsubara.d_i_0_0_i, z0_r_0_C, z0_r_0_eq, z0_tlog_eq, z0_tlog_t_eq, toC_zero, energy_zero hq.le, ofReal_bose, toC_complex, toC_real, ofR_complex, toC_ofR, map_mul, map_add, map_neg, map_sub, map_inv₀, map_div₀, toC_energy, toC_bose, mul_zero, sub_self, neg_zero, sub_zero, add_zero, zero_sub, neg_neg]
    push_cast
    try simp only [z0_tlog_same_mass_eq, z0_tlog_zero_mass_eq, z0_tlog_t_same_mass_eq, z0_tlog_t_zero_mass_eq, ofReal_bose, add_zero]
    first | (field_simp; done) | (field_simp; ring_nf; done) | (rw [← sub_eq_zero]; ring_nf; field_simp; ring_nf; done) | (ring_nf; field_simp; done) | (field_simp; ring_nf; field_simp; ring_nf; done)
  · intro q p beta hq
    have hq0 : (q : ℂ) ≠ 0 := Complex.ofReal_ne_zero.2 hq.ne'
    rw [toC_thermal_zero_matsubara_d_i_m_0_l_i]
    simp only [thermal.zero_matsubara.d_i_m_0_l_i, thermal.zero_matsubara.d_i_0_0_l_i, z0_r_0_C, z0_r_0_eq, z0_tlog_eq, z0_tlog_t_eq, toC_zero, energy_zero hq.le, ofReal_bose, toC_complex, toC_real, ofR_complex, toC_ofR, map_mul, map_add, map_neg, map_sub, map_inv₀, map_div₀, toC_energy, toC_bose, mul_zero, sub_self, neg_zero, sub_zero, add_zero, zero_sub, neg_neg]
    push_cast
    try simp only [z0_tlog_same_mass_eq, z0_tlog_zero_mass_eq, z0_tlog_t_same_mass_eq, z0_tlog_t_zero_mass_eq, ofReal_bose, add_zero]
    first | (field_simp; done) | (field_simp; ring_nf; done) | (rw [← sub_eq_zero]; ring_nf; field_simp; ring_nf; done) | (ring_nf; field_simp; done) | (field_simp; ring_nf; field_simp; ring_nf; done)
  · intro q p beta hq
    have hq0 : (q : ℂ) ≠ 0 := Complex.ofReal_ne_zero.2 hq.ne'
    rw [toC_thermal_zero_matsubara_d_i_m_0_t_i]
    simp only [thermal.zero_matsubara.d_i_m_0_t_i, thermal.zero_matsubara.d_i_0_0_t_i, z0_r_0_C, z0_r_0_eq, z0_tlog_eq, z0_tlog_t_eq, toC_zero, energy_zero hq.le, ofReal_bose, toC_complex, toC_real, ofR_complex, toC_ofR, map_mul, map_add, map_neg, map_sub, map_inv₀, map_div₀, toC_energy, toC_bose, mul_zero, sub_self, neg_zero, sub_zero, add_zero, zero_sub, neg_neg]
    push_cast
    try simp only [z0_tlog_same_mass_eq, z0_tlog_zero_mass_eq, z0_tlog_t_same_mass_eq, z0_tlog_t_zero_mass_eq, ofReal_bose, add_zero]
    first | (field_simp; done) | (field_simp; ring_nf; done) | (rw [← sub_eq_zero]; ring_nf; field_simp; ring_nf; done) | (ring_nf; field_simp; done) | (field_simp; ring_nf; field_simp; ring_nf; done)

/-- The tadpole integrands (and their mass derivatives) at mass zero are the index-0 ones. -/
theorem C35_thermal_tadpoles (q : ℝ) (beta : ℝ) (hq : 0 < q) :
    thermal.j_m_i q (0 : T) beta = ofR (thermal.j_0_i q beta) ∧
    thermal.j_m_l_i q (0 : T) beta = ofR (thermal.j_0_l_i q beta) ∧
    thermal.j_m_t_i q (0 : T) beta = ofR (thermal.j_0_t_i q beta) ∧
    thermal.d_j_m_i q (0 : T) beta = ofR (thermal.d_j_0_i q beta) ∧
    thermal.d_j_m_l_i q (0 : T) beta = ofR (thermal.d_j_0_l_i q beta) ∧
    thermal.d_j_m_t_i q (0 : T) beta = ofR (thermal.d_j_0_t_i q beta) ∧
    thermal.d2_j_m_i q (0 : T) beta = ofR (thermal.d2_j_0_i q beta) ∧
    thermal.d2_j_m_l_i q (0 : T) beta = ofR (thermal.d2_j_0_l_i q beta) ∧
    thermal.d2_j_m_t_i q (0 : T) beta = ofR (thermal.d2_j_0_t_i q beta) := by
  have hq0 : (q : ℂ) ≠ 0 := Complex.ofReal_ne_zero.2 hq.ne'
  have hpi : (PI2 : ℂ) ≠ 0 := Complex.ofReal_ne_zero.2 (mul_pos Real.pi_pos Real.pi_pos).ne'
  refine ⟨?_, ?_, ?_, ?_, ?_, ?_, ?_, ?_, ?_⟩ <;> apply toC_injective
  · rw [toC_thermal_j_m_i]
    simp only [thermal.j_m_i, thermal.j_0_i, toC_zero, energy_zero hq.le, toC_ofR]
    push_cast
    simp only [ofReal_bose, ofR_complex]
    push_cast
    try field_simp
  · rw [toC_thermal_j_m_l_i]
    simp only [thermal.j_m_l_i, thermal.j_0_l_i, toC_zero, energy_zero hq.le, toC_ofR]
    push_cast
    simp only [ofReal_bose, ofR_complex]
    push_cast
    try field_simp
  · rw [toC_thermal_j_m_t_i]
    simp only [thermal.j_m_t_i, thermal.j_0_t_i, toC_zero, energy_zero hq.le, toC_ofR]
    push_cast
    simp only [ofReal_bose, ofR_complex]
    push_cast
    try field_simp
  · rw [toC_thermal_d_j_m_i]
    simp only [thermal.d_j_m_i, thermal.d_j_0_i, toC_zero, energy_zero hq.le, toC_ofR]
    push_cast
    simp only [ofReal_bose, ofR_complex]
    push_cast
    try field_simp
  · rw [toC_thermal_d_j_m_l_i]
    simp only [thermal.d_j_m_l_i, thermal.d_j_0_l_i, toC_zero, energy_zero hq.le, toC_ofR]
    push_cast
    simp only [ofReal_bose, ofR_complex]
    push_cast
    try field_simp
  · rw [toC_thermal_d_j_m_t_i]
    simp only [thermal.d_j_m_t_i, thermal.d_j_0_t_i, toC_zero, energy_zero hq.le, toC_ofR]
    push_cast
    simp only [ofReal_bose, ofR_complex]
    push_cast
    try field_simp
  · rw [toC_thermal_d2_j_m_i]
    simp only [thermal.d2_j_m_i, thermal.d2_j_0_i, toC_zero, energy_zero hq.le, toC_ofR]
    push_cast
    simp only [ofReal_bose, ofR_complex]
    push_cast
    try field_simp
  · rw [toC_thermal_d2_j_m_l_i]
    simp only [thermal.d2_j_m_l_i, thermal.d2_j_0_l_i, toC_zero, energy_zero hq.le, toC_ofR]
    push_cast
    simp only [ofReal_bose, ofR_complex]
    push_cast
    try field_simp
  · rw [toC_thermal_d2_j_m_t_i]
    simp only [thermal.d2_j_m_t_i, thermal.d2_j_0_t_i, toC_zero, energy_zero hq.le, toC_ofR]
    push_cast
    simp only [ofReal_bose, ofR_complex]
    push_cast
    try field_simp

/- The hypotheses are met and the identities are not of the form `0 = 0`: a real frequency with a
complex and a real mass; and a tadpole with a nonzero value. -/
example : thermal.i_m_m_i 1 (2 : ℝ) 3 Complex.I (1 : ℝ) 1 = thermal.i_m_m_i 1 (2 : ℝ) 3 (1 : ℝ) Complex.I 1 :=
  (C34_thermal (T1 := ℝ) (T2 := ℂ) (T3 := ℝ)).1 1 2 3 Complex.I 1 1

example : thermal.i_m_m_l_i 1 (2 : ℝ) 3 Complex.I (0 : ℝ) 1 = thermal.i_m_0_l_i 1 (2 : ℝ) (3 : ℝ) Complex.I 1 :=
  (C35_thermal_second_mass_zero (T1 := ℝ) (T2 := ℂ) (T3 := ℝ)).2.1 1 2 3 Complex.I 1 one_pos

example : thermal.j_m_i 1 (0 : ℝ) 1 = thermal.j_0_i 1 1 ∧ thermal.j_0_i 1 1 ≠ 0 := by
  refine ⟨(C35_thermal_tadpoles (T := ℝ) 1 1 one_pos).1, ?_⟩
  have h : Real.exp 1 - 1 ≠ 0 := by
    have := Real.add_one_lt_exp (one_ne_zero); intro h; linarith
  simp [thermal.j_0_i, bose_distribution_zero_chempot, statistic_distribution_exponential_zero_chempot, PI2, h]

end Qcd
