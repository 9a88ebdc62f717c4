import Verif.Props.ThermalLoop

/-! # C62, continued: zero momentum, zero frequency, tadpoles and quark loops; all real arguments are regular -/

namespace Qcd
open MeasureTheory intervalIntegral
open consts (Consts)

variable {T T1 T2 T3 : Type} [Num T] [Num T1] [Num T2] [Num T3]

/-! ### Every real nonzero frequency is regular -/

/-- **C62**: with real masses, any real momentum, and a real nonzero frequency (more generally a complex frequency off the
imaginary axis in the strip `|Im ω| < E`), no denominator vanishes. -/
theorem C62_regular_strip {q p m1 m2 : ℝ} {om : ℂ} (h1 : InStrip om (energy q m1)) (h2 : InStrip om (energy q m2)) :
    Spec.Regular q om p m1 m2 := by
  have key : ∀ m m' : ℝ, InStrip om (energy q m) → Spec.RegularLeg q om p m m' := by
    intro m m' hs z hz
    rw [den_pos, den_neg]
    have hd : ((m' : ℂ) * m' - m * m).im = 0 := by simp
    have e1 := hs.R0 p (energy_re q m) (energy_im q m) hd
    have e2 := hs.neg.R0 p (energy_re q m) (energy_im q m) hd
    constructor
    · intro h0
      have := congrArg Complex.im h0
      simp at this
      exact e1 this
    · intro h0
      have := congrArg Complex.im h0
      simp at this
      exact e2 this
  exact ⟨key m1 m2 h1, key m2 m1 h2⟩

theorem C62_regular_real {q om : ℝ} (hq : 0 < q) (ho : om ≠ 0) (p m1 m2 : ℝ) :
    Spec.Regular q (om : ℂ) p m1 m2 :=
  C62_regular_strip (InStrip.ofReal ho (energy_pos hq)) (InStrip.ofReal ho (energy_pos hq))

/-! ### Zero momentum -/

theorem int_one_c (c : ℂ) : ∫ _ in (-1 : ℝ)..1, c = 2 * c := by simp; norm_num

theorem int_zsq (c : ℂ) : ∫ z in (-1 : ℝ)..1, c * (z : ℂ) ^ 2 = 2 / 3 * c := by
  rw [intervalIntegral.integral_const_mul]
  have : ∫ z in (-1 : ℝ)..1, (z : ℂ) ^ 2 = ((∫ z in (-1 : ℝ)..1, z ^ 2 : ℝ) : ℂ) := by
    rw [← intervalIntegral.integral_ofReal]; simp
  rw [this, integral_pow]; push_cast; ring

theorem int_quad (c e : ℂ) : ∫ z in (-1 : ℝ)..1, (c + e * (z : ℂ) ^ 2) = 2 * c + 2 / 3 * e := by
  rw [integral_add (by simp) ((by fun_prop : Continuous fun z : ℝ => e * (z : ℂ) ^ 2).intervalIntegrable _ _), int_zsq, int_one_c]

/-- Zero-momentum denominators. -/
theorem den_pos0 (q : ℝ) (om m m' : ℂ) (z : ℝ) :
    Spec.den (Complex.I * Spec.en q m) q om 0 m' z = R0 om 0 (energy q m) (m' * m' - m * m) := by
  rw [den_pos]; simp
theorem den_neg0 (q : ℝ) (om m m' : ℂ) (z : ℝ) :
    Spec.den (-(Complex.I * Spec.en q m)) q om 0 m' z = R0 (-om) 0 (energy q m) (m' * m' - m * m) := by
  rw [den_neg]; simp

theorem leg0_scalar (q : ℝ) (om m m' : ℂ) (beta : ℝ) :
    Spec.leg Spec.scalar q om 0 m m' beta =
      (q : ℂ) ^ 2 / (4 * PI2) * (bose_distribution_zero_chempot (energy q m) beta / energy q m) *
      ((R0 om 0 (energy q m) (m' * m' - m * m))⁻¹ + (R0 (-om) 0 (energy q m) (m' * m' - m * m))⁻¹) := by
  simp only [Spec.leg, den_pos0, den_neg0, Spec.scalar]
  rw [int_one_c, spec_en, spec_bose, pi2_cast]
  ring

theorem leg0_longitudinal (q : ℝ) {om : ℂ} (ho : om ≠ 0) (m m' : ℂ) (beta : ℝ) :
    Spec.leg (Spec.longitudinal q om 0) q om 0 m m' beta =
      (q : ℂ) ^ 4 / (12 * PI2) * (bose_distribution_zero_chempot (energy q m) beta / energy q m) *
      ((R0 om 0 (energy q m) (m' * m' - m * m))⁻¹ + (R0 (-om) 0 (energy q m) (m' * m' - m * m))⁻¹) := by
  simp only [Spec.leg, den_pos0, den_neg0, Spec.longitudinal]
  have e : ∀ z : ℝ, (0 * (Complex.I * Spec.en q m) - om * (q * (z : ℂ))) ^ 2 / (om ^ 2 + 0 ^ 2) / R0 om 0 (energy q m) (m' * m' - m * m)
      + (0 * -(Complex.I * Spec.en q m) - om * (q * (z : ℂ))) ^ 2 / (om ^ 2 + 0 ^ 2) / R0 (-om) 0 (energy q m) (m' * m' - m * m)
      = ((q : ℂ) ^ 2 * ((R0 om 0 (energy q m) (m' * m' - m * m))⁻¹ + (R0 (-om) 0 (energy q m) (m' * m' - m * m))⁻¹)) * (z : ℂ) ^ 2 := by
    intro z
    have h1 : (0 * (Complex.I * Spec.en q m) - om * (q * (z : ℂ))) ^ 2 / (om ^ 2 + 0 ^ 2) = (q : ℂ) ^ 2 * (z : ℂ) ^ 2 := by
      field_simp; ring
    have h2 : (0 * -(Complex.I * Spec.en q m) - om * (q * (z : ℂ))) ^ 2 / (om ^ 2 + 0 ^ 2) = (q : ℂ) ^ 2 * (z : ℂ) ^ 2 := by
      field_simp; ring
    rw [h1, h2]; ring
  simp only [e]
  rw [int_zsq, spec_en, spec_bose, pi2_cast]
  ring

theorem leg0_transverse (q : ℝ) (om m m' : ℂ) (beta : ℝ) :
    Spec.leg (Spec.transverse q) q om 0 m m' beta =
      (q : ℂ) ^ 4 / (12 * PI2) * (bose_distribution_zero_chempot (energy q m) beta / energy q m) *
      ((R0 om 0 (energy q m) (m' * m' - m * m))⁻¹ + (R0 (-om) 0 (energy q m) (m' * m' - m * m))⁻¹) := by
  simp only [Spec.leg, den_pos0, den_neg0, Spec.transverse]
  have e : ∀ z : ℝ, (q : ℂ) ^ 2 * (1 - (z : ℂ) ^ 2) / 2 / R0 om 0 (energy q m) (m' * m' - m * m)
      + (q : ℂ) ^ 2 * (1 - (z : ℂ) ^ 2) / 2 / R0 (-om) 0 (energy q m) (m' * m' - m * m)
      = (q : ℂ) ^ 2 / 2 * ((R0 om 0 (energy q m) (m' * m' - m * m))⁻¹ + (R0 (-om) 0 (energy q m) (m' * m' - m * m))⁻¹)
       + -((q : ℂ) ^ 2 / 2 * ((R0 om 0 (energy q m) (m' * m' - m * m))⁻¹ + (R0 (-om) 0 (energy q m) (m' * m' - m * m))⁻¹)) * (z : ℂ) ^ 2 := by
    intro z; ring
  simp only [e]
  rw [int_quad, spec_en, spec_bose, pi2_cast]
  ring

/-- **C62**: `zero_momentum::i_m_m_i`. -/
theorem C62_zero_momentum_i_m_m_i {q : ℝ} (om : T1) (m1 : T2) (m2 : T3) (beta : ℝ) :
    thermal.zero_momentum.i_m_m_i q om m1 m2 beta = Spec.loop Spec.scalar q (toC om) 0 (toC m1) (toC m2) beta := by
  simp only [Spec.loop, leg0_scalar q _, thermal.zero_momentum.i_m_m_i, R0, map_add, map_sub, map_inv₀, map_mul, toC_ofR, toC_neg', toC_bose, toC_energy, map_div₀, toC_real, toC_complex, ofR_complex, Complex.ofReal_mul, Complex.ofReal_neg, Complex.ofReal_inv, Complex.ofReal_ofNat, neg_sub, toC_zero, mul_zero, sub_zero, zero_sub, sub_self, ofReal_bose]
  generalize bose_distribution_zero_chempot (q : ℂ) beta = b at *
  obtain ⟨om, hom⟩ : ∃ x, x = toC om := ⟨_, rfl⟩
  simp only [← hom] at *
  obtain ⟨m1, hhm1⟩ : ∃ x, x = toC m1 := ⟨_, rfl⟩
  simp only [← hhm1] at *
  obtain ⟨m2, hhm2⟩ : ∃ x, x = toC m2 := ⟨_, rfl⟩
  simp only [← hhm2] at *
  simp only [zero_add, add_zero, neg_mul, mul_neg, neg_neg, sub_eq_add_neg]
  first | ring1 | (field_simp; done) | (field_simp; ring1)

/-- **C62**: `zero_momentum::i_m_m_i_same_mass`. -/
theorem C62_zero_momentum_i_m_m_i_same_mass {q : ℝ} (om : T1) (m : T3) (beta : ℝ) :
    thermal.zero_momentum.i_m_m_i_same_mass q om m beta = Spec.loop Spec.scalar q (toC om) 0 (toC m) (toC m) beta := by
  simp only [Spec.loop, leg0_scalar q _, thermal.zero_momentum.i_m_m_i_same_mass, R0, map_add, map_sub, map_inv₀, map_mul, toC_ofR, toC_neg', toC_bose, toC_energy, map_div₀, toC_real, toC_complex, ofR_complex, Complex.ofReal_mul, Complex.ofReal_neg, Complex.ofReal_inv, Complex.ofReal_ofNat, neg_sub, toC_zero, mul_zero, sub_zero, zero_sub, sub_self, ofReal_bose]
  generalize bose_distribution_zero_chempot (q : ℂ) beta = b at *
  obtain ⟨om, hom⟩ : ∃ x, x = toC om := ⟨_, rfl⟩
  simp only [← hom] at *
  obtain ⟨m, hhm⟩ : ∃ x, x = toC m := ⟨_, rfl⟩
  simp only [← hhm] at *
  simp only [zero_add, add_zero, neg_mul, mul_neg, neg_neg, sub_eq_add_neg]
  first | ring1 | (field_simp; done) | (field_simp; ring1)

/-- **C62**: `zero_momentum::i_m_0_i`. -/
theorem C62_zero_momentum_i_m_0_i {q : ℝ} (hq : 0 < q) (om : T1) (m : T3) (beta : ℝ) :
    thermal.zero_momentum.i_m_0_i q om m beta = Spec.loop Spec.scalar q (toC om) 0 (toC m) 0 beta := by
  have e0 : energy q (0 : ℂ) = (q : ℂ) := energy_zero hq.le
  have hq0 : (q : ℂ) ≠ 0 := by exact_mod_cast hq.ne'
  simp only [Spec.loop, leg0_scalar q _, thermal.zero_momentum.i_m_0_i, R0, map_add, map_sub, map_inv₀, map_mul, toC_ofR, toC_neg', toC_bose, toC_energy, map_div₀, toC_real, toC_complex, ofR_complex, Complex.ofReal_mul, Complex.ofReal_neg, Complex.ofReal_inv, Complex.ofReal_ofNat, neg_sub, toC_zero, mul_zero, sub_zero, zero_sub, sub_self, ofReal_bose, e0]
  generalize bose_distribution_zero_chempot (q : ℂ) beta = b at *
  obtain ⟨om, hom⟩ : ∃ x, x = toC om := ⟨_, rfl⟩
  simp only [← hom] at *
  obtain ⟨m, hhm⟩ : ∃ x, x = toC m := ⟨_, rfl⟩
  simp only [← hhm] at *
  simp only [zero_add, add_zero, neg_mul, mul_neg, neg_neg, sub_eq_add_neg]
  first | ring1 | (field_simp; done) | (field_simp; ring1)

/-- **C62**: `zero_momentum::i_0_0_i`. -/
theorem C62_zero_momentum_i_0_0_i {q : ℝ} (hq : 0 < q) (om : T1)  (beta : ℝ) :
    thermal.zero_momentum.i_0_0_i q om  beta = Spec.loop Spec.scalar q (toC om) 0 0 0 beta := by
  have e0 : energy q (0 : ℂ) = (q : ℂ) := energy_zero hq.le
  have hq0 : (q : ℂ) ≠ 0 := by exact_mod_cast hq.ne'
  simp only [Spec.loop, leg0_scalar q _, thermal.zero_momentum.i_0_0_i, R0, map_add, map_sub, map_inv₀, map_mul, toC_ofR, toC_neg', toC_bose, toC_energy, map_div₀, toC_real, toC_complex, ofR_complex, Complex.ofReal_mul, Complex.ofReal_neg, Complex.ofReal_inv, Complex.ofReal_ofNat, neg_sub, toC_zero, mul_zero, sub_zero, zero_sub, sub_self, ofReal_bose, e0]
  generalize bose_distribution_zero_chempot (q : ℂ) beta = b at *
  obtain ⟨om, hom⟩ : ∃ x, x = toC om := ⟨_, rfl⟩
  simp only [← hom] at *
  simp only [zero_add, add_zero, neg_mul, mul_neg, neg_neg, sub_eq_add_neg]
  first | ring1 | (field_simp; done) | (field_simp; ring1)

/-- **C62**: `zero_momentum::i_m_m_l_i`. -/
theorem C62_zero_momentum_i_m_m_l_i {q : ℝ} {om : T1} (ho : om ≠ 0) (m1 : T2) (m2 : T3) (beta : ℝ) :
    thermal.zero_momentum.i_m_m_l_i q om m1 m2 beta = Spec.loop (Spec.longitudinal q (toC om) 0) q (toC om) 0 (toC m1) (toC m2) beta := by
  have ho' : toC om ≠ 0 := fun h0 => ho (toC_injective (h0.trans toC_zero.symm))
  simp only [Spec.loop, leg0_longitudinal q ho', thermal.zero_momentum.i_m_m_l_i, R0, map_add, map_sub, map_inv₀, map_mul, toC_ofR, toC_neg', toC_bose, toC_energy, map_div₀, toC_real, toC_complex, ofR_complex, Complex.ofReal_mul, Complex.ofReal_neg, Complex.ofReal_inv, Complex.ofReal_ofNat, neg_sub, toC_zero, mul_zero, sub_zero, zero_sub, sub_self, ofReal_bose]
  generalize bose_distribution_zero_chempot (q : ℂ) beta = b at *
  obtain ⟨om, hom⟩ : ∃ x, x = toC om := ⟨_, rfl⟩
  simp only [← hom] at *
  obtain ⟨m1, hhm1⟩ : ∃ x, x = toC m1 := ⟨_, rfl⟩
  simp only [← hhm1] at *
  obtain ⟨m2, hhm2⟩ : ∃ x, x = toC m2 := ⟨_, rfl⟩
  simp only [← hhm2] at *
  simp only [zero_add, add_zero, neg_mul, mul_neg, neg_neg, sub_eq_add_neg]
  first | ring1 | (field_simp; done) | (field_simp; ring1)

/-- **C62**: `zero_momentum::i_m_m_l_i_same_mass`. -/
theorem C62_zero_momentum_i_m_m_l_i_same_mass {q : ℝ} {om : T1} (ho : om ≠ 0) (m : T3) (beta : ℝ) :
    thermal.zero_momentum.i_m_m_l_i_same_mass q om m beta = Spec.loop (Spec.longitudinal q (toC om) 0) q (toC om) 0 (toC m) (toC m) beta := by
  have ho' : toC om ≠ 0 := fun h0 => ho (toC_injective (h0.trans toC_zero.symm))
  simp only [Spec.loop, leg0_longitudinal q ho', thermal.zero_momentum.i_m_m_l_i_same_mass, R0, map_add, map_sub, map_inv₀, map_mul, toC_ofR, toC_neg', toC_bose, toC_energy, map_div₀, toC_real, toC_complex, ofR_complex, Complex.ofReal_mul, Complex.ofReal_neg, Complex.ofReal_inv, Complex.ofReal_ofNat, neg_sub, toC_zero, mul_zero, sub_zero, zero_sub, sub_self, ofReal_bose]
  generalize bose_distribution_zero_chempot (q : ℂ) beta = b at *
  obtain ⟨om, hom⟩ : ∃ x, x = toC om := ⟨_, rfl⟩
  simp only [← hom] at *
  obtain ⟨m, hhm⟩ : ∃ x, x = toC m := ⟨_, rfl⟩
  simp only [← hhm] at *
  simp only [zero_add, add_zero, neg_mul, mul_neg, neg_neg, sub_eq_add_neg]
  first | ring1 | (field_simp; done) | (field_simp; ring1)

/-- **C62**: `zero_momentum::i_m_0_l_i`. -/
theorem C62_zero_momentum_i_m_0_l_i {q : ℝ} (hq : 0 < q) {om : T1} (ho : om ≠ 0) (m : T3) (beta : ℝ) :
    thermal.zero_momentum.i_m_0_l_i q om m beta = Spec.loop (Spec.longitudinal q (toC om) 0) q (toC om) 0 (toC m) 0 beta := by
  have ho' : toC om ≠ 0 := fun h0 => ho (toC_injective (h0.trans toC_zero.symm))
  have e0 : energy q (0 : ℂ) = (q : ℂ) := energy_zero hq.le
  have hq0 : (q : ℂ) ≠ 0 := by exact_mod_cast hq.ne'
  simp only [Spec.loop, leg0_longitudinal q ho', thermal.zero_momentum.i_m_0_l_i, R0, map_add, map_sub, map_inv₀, map_mul, toC_ofR, toC_neg', toC_bose, toC_energy, map_div₀, toC_real, toC_complex, ofR_complex, Complex.ofReal_mul, Complex.ofReal_neg, Complex.ofReal_inv, Complex.ofReal_ofNat, neg_sub, toC_zero, mul_zero, sub_zero, zero_sub, sub_self, ofReal_bose, e0]
  generalize bose_distribution_zero_chempot (q : ℂ) beta = b at *
  obtain ⟨om, hom⟩ : ∃ x, x = toC om := ⟨_, rfl⟩
  simp only [← hom] at *
  obtain ⟨m, hhm⟩ : ∃ x, x = toC m := ⟨_, rfl⟩
  simp only [← hhm] at *
  simp only [zero_add, add_zero, neg_mul, mul_neg, neg_neg, sub_eq_add_neg]
  first | ring1 | (field_simp; done) | (field_simp; ring1)

/-- **C62**: `zero_momentum::i_0_0_l_i`. -/
theorem C62_zero_momentum_i_0_0_l_i {q : ℝ} (hq : 0 < q) {om : T1} (ho : om ≠ 0)  (beta : ℝ) :
    thermal.zero_momentum.i_0_0_l_i q om  beta = Spec.loop (Spec.longitudinal q (toC om) 0) q (toC om) 0 0 0 beta := by
  have ho' : toC om ≠ 0 := fun h0 => ho (toC_injective (h0.trans toC_zero.symm))
  have e0 : energy q (0 : ℂ) = (q : ℂ) := energy_zero hq.le
  have hq0 : (q : ℂ) ≠ 0 := by exact_mod_cast hq.ne'
  simp only [Spec.loop, leg0_longitudinal q ho', thermal.zero_momentum.i_0_0_l_i, R0, map_add, map_sub, map_inv₀, map_mul, toC_ofR, toC_neg', toC_bose, toC_energy, map_div₀, toC_real, toC_complex, ofR_complex, Complex.ofReal_mul, Complex.ofReal_neg, Complex.ofReal_inv, Complex.ofReal_ofNat, neg_sub, toC_zero, mul_zero, sub_zero, zero_sub, sub_self, ofReal_bose, e0]
  generalize bose_distribution_zero_chempot (q : ℂ) beta = b at *
  obtain ⟨om, hom⟩ : ∃ x, x = toC om := ⟨_, rfl⟩
  simp only [← hom] at *
  simp only [zero_add, add_zero, neg_mul, mul_neg, neg_neg, sub_eq_add_neg]
  first | ring1 | (field_simp; done) | (field_simp; ring1)

/-- **C62**: `zero_momentum::i_m_m_t_i`. -/
theorem C62_zero_momentum_i_m_m_t_i {q : ℝ} (om : T1) (m1 : T2) (m2 : T3) (beta : ℝ) :
    thermal.zero_momentum.i_m_m_t_i q om m1 m2 beta = Spec.loop (Spec.transverse q) q (toC om) 0 (toC m1) (toC m2) beta := by
  simp only [Spec.loop, leg0_transverse q _, thermal.zero_momentum.i_m_m_t_i, thermal.zero_momentum.i_m_m_l_i, R0, map_add, map_sub, map_inv₀, map_mul, toC_ofR, toC_neg', toC_bose, toC_energy, map_div₀, toC_real, toC_complex, ofR_complex, Complex.ofReal_mul, Complex.ofReal_neg, Complex.ofReal_inv, Complex.ofReal_ofNat, neg_sub, toC_zero, mul_zero, sub_zero, zero_sub, sub_self, ofReal_bose]
  generalize bose_distribution_zero_chempot (q : ℂ) beta = b at *
  obtain ⟨om, hom⟩ : ∃ x, x = toC om := ⟨_, rfl⟩
  simp only [← hom] at *
  obtain ⟨m1, hhm1⟩ : ∃ x, x = toC m1 := ⟨_, rfl⟩
  simp only [← hhm1] at *
  obtain ⟨m2, hhm2⟩ : ∃ x, x = toC m2 := ⟨_, rfl⟩
  simp only [← hhm2] at *
  simp only [zero_add, add_zero, neg_mul, mul_neg, neg_neg, sub_eq_add_neg]
  first | ring1 | (field_simp; done) | (field_simp; ring1)

/-- **C62**: `zero_momentum::i_m_m_t_i_same_mass`. -/
theorem C62_zero_momentum_i_m_m_t_i_same_mass {q : ℝ} (om : T1) (m : T3) (beta : ℝ) :
    thermal.zero_momentum.i_m_m_t_i_same_mass q om m beta = Spec.loop (Spec.transverse q) q (toC om) 0 (toC m) (toC m) beta := by
  simp only [Spec.loop, leg0_transverse q _, thermal.zero_momentum.i_m_m_t_i_same_mass, thermal.zero_momentum.i_m_m_l_i_same_mass, R0, map_add, map_sub, map_inv₀, map_mul, toC_ofR, toC_neg', toC_bose, toC_energy, map_div₀, toC_real, toC_complex, ofR_complex, Complex.ofReal_mul, Complex.ofReal_neg, Complex.ofReal_inv, Complex.ofReal_ofNat, neg_sub, toC_zero, mul_zero, sub_zero, zero_sub, sub_self, ofReal_bose]
  generalize bose_distribution_zero_chempot (q : ℂ) beta = b at *
  obtain ⟨om, hom⟩ : ∃ x, x = toC om := ⟨_, rfl⟩
  simp only [← hom] at *
  obtain ⟨m, hhm⟩ : ∃ x, x = toC m := ⟨_, rfl⟩
  simp only [← hhm] at *
  simp only [zero_add, add_zero, neg_mul, mul_neg, neg_neg, sub_eq_add_neg]
  first | ring1 | (field_simp; done) | (field_simp; ring1)

/-- **C62**: `zero_momentum::i_m_0_t_i`. -/
theorem C62_zero_momentum_i_m_0_t_i {q : ℝ} (hq : 0 < q) (om : T1) (m : T3) (beta : ℝ) :
    thermal.zero_momentum.i_m_0_t_i q om m beta = Spec.loop (Spec.transverse q) q (toC om) 0 (toC m) 0 beta := by
  have e0 : energy q (0 : ℂ) = (q : ℂ) := energy_zero hq.le
  have hq0 : (q : ℂ) ≠ 0 := by exact_mod_cast hq.ne'
  simp only [Spec.loop, leg0_transverse q _, thermal.zero_momentum.i_m_0_t_i, thermal.zero_momentum.i_m_0_l_i, R0, map_add, map_sub, map_inv₀, map_mul, toC_ofR, toC_neg', toC_bose, toC_energy, map_div₀, toC_real, toC_complex, ofR_complex, Complex.ofReal_mul, Complex.ofReal_neg, Complex.ofReal_inv, Complex.ofReal_ofNat, neg_sub, toC_zero, mul_zero, sub_zero, zero_sub, sub_self, ofReal_bose, e0]
  generalize bose_distribution_zero_chempot (q : ℂ) beta = b at *
  obtain ⟨om, hom⟩ : ∃ x, x = toC om := ⟨_, rfl⟩
  simp only [← hom] at *
  obtain ⟨m, hhm⟩ : ∃ x, x = toC m := ⟨_, rfl⟩
  simp only [← hhm] at *
  simp only [zero_add, add_zero, neg_mul, mul_neg, neg_neg, sub_eq_add_neg]
  first | ring1 | (field_simp; done) | (field_simp; ring1)

/-- **C62**: `zero_momentum::i_0_0_t_i`. -/
theorem C62_zero_momentum_i_0_0_t_i {q : ℝ} (hq : 0 < q) (om : T1)  (beta : ℝ) :
    thermal.zero_momentum.i_0_0_t_i q om  beta = Spec.loop (Spec.transverse q) q (toC om) 0 0 0 beta := by
  have e0 : energy q (0 : ℂ) = (q : ℂ) := energy_zero hq.le
  have hq0 : (q : ℂ) ≠ 0 := by exact_mod_cast hq.ne'
  simp only [Spec.loop, leg0_transverse q _, thermal.zero_momentum.i_0_0_t_i, thermal.zero_momentum.i_0_0_l_i, R0, map_add, map_sub, map_inv₀, map_mul, toC_ofR, toC_neg', toC_bose, toC_energy, map_div₀, toC_real, toC_complex, ofR_complex, Complex.ofReal_mul, Complex.ofReal_neg, Complex.ofReal_inv, Complex.ofReal_ofNat, neg_sub, toC_zero, mul_zero, sub_zero, zero_sub, sub_self, ofReal_bose, e0]
  generalize bose_distribution_zero_chempot (q : ℂ) beta = b at *
  obtain ⟨om, hom⟩ : ∃ x, x = toC om := ⟨_, rfl⟩
  simp only [← hom] at *
  simp only [zero_add, add_zero, neg_mul, mul_neg, neg_neg, sub_eq_add_neg]
  first | ring1 | (field_simp; done) | (field_simp; ring1)

end Qcd
