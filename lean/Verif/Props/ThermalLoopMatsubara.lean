import Verif.Props.ThermalLoopSpecial

/-! # C62, continued: the zero-frequency integrands

At zero frequency the angular integrals exist off the singular region `|p² + m'² - m²| ≤ 2 q p`; there the
integrands of the `zero_matsubara` module are the angular integrals at `ω = 0`. Masses are real. -/

namespace Qcd
open MeasureTheory intervalIntegral

theorem TL_zero_om {q p m m' : ℝ} (h : Spec.RegularLeg q 0 p m m') (en : ℂ) :
    TL q 0 p en ((m' : ℂ) * m' - m * m) = ZL q p ((m' : ℂ) * m' - m * m) := by
  have hs := slit_of_segment (fun z hz => (h.poles z hz).1) 1 (by simp)
  have hA : R0 0 p (energy q (m : ℂ)) ((m' : ℂ) * m' - m * m) = ((p * p + (m' * m' - m * m) : ℝ) : ℂ) := by
    simp [R0]
  have hA' : R0 0 p en ((m' : ℂ) * m' - m * m) = ((p * p + (m' * m' - m * m) : ℝ) : ℂ) := by
    simp [R0]
  rw [hA] at hs
  rw [TL_eq, hA']
  have hd : ((m' : ℂ) * m' - m * m) = ((m' * m' - m * m : ℝ) : ℂ) := by push_cast; ring
  rw [hd, ZL_ofReal]
  set A := p * p + (m' * m' - m * m) with hAdef
  have e1 : ((A : ℂ) + 2 * q * p) / ((A : ℂ) - 2 * q * p) = (((A + q * 2 * p) / (A - q * 2 * p) : ℝ) : ℂ) := by
    push_cast; ring
  have e2 : ((A : ℂ) + 2 * q * p * ((1 : ℝ) : ℂ)) / ((A : ℂ) - 2 * q * p) = (((A + q * 2 * p) / (A - q * 2 * p) : ℝ) : ℂ) := by
    rw [← e1]; push_cast; ring
  rw [e2, Complex.ofReal_mem_slitPlane] at hs
  rw [e1, ← Complex.ofReal_log hs.le]
  congr 1
  rw [Real.log_mul hs.ne' hs.ne']
  ring

theorem leg_longitudinal_zero_om {q : ℝ} {p m m' : ℂ} (hq : q ≠ 0) (hp : p ≠ 0) (h : Spec.RegularLeg q 0 p m m') (beta : ℝ) :
    Spec.leg (Spec.longitudinal q 0 p) q 0 p m m' beta =
      -((q : ℂ) / (16 * PI2 * p)) * (bose_distribution_zero_chempot (energy q m) beta * energy q m) *
      (TL q 0 p (energy q m) (m' * m' - m * m) + TL q 0 p (energy q m) (m' * m' - m * m)) := by
  have e : ∀ x : ℂ, x ^ 2 = -(energy q m ^ 2) → ∀ z : ℝ, Spec.longitudinal q 0 p x z = -(energy q m ^ 2) * Spec.scalar x z := by
    intro x hx z
    simp only [Spec.longitudinal, Spec.scalar]
    field_simp
    linear_combination p ^ 2 * hx
  have h1 := e (Complex.I * Spec.en q m) (by rw [spec_en, mul_pow, Complex.I_sq]; ring)
  have h2 := e (-(Complex.I * Spec.en q m)) (by rw [spec_en, neg_sq, mul_pow, Complex.I_sq]; ring)
  have h3 : Spec.leg (Spec.longitudinal q 0 p) q 0 p m m' beta = -(energy q m ^ 2) * Spec.leg Spec.scalar q 0 p m m' beta := by
    simp only [Spec.leg, h1, h2, mul_div_assoc, ← mul_add]
    rw [intervalIntegral.integral_const_mul]
    ring
  rw [h3, leg_scalar hq hp h, neg_zero]
  generalize TL q 0 p (energy q m) (m' * m' - m * m) = L
  generalize bose_distribution_zero_chempot (energy q m) beta = b
  by_cases hE : energy q m = 0
  · rw [hE]; simp
  · field_simp

/-- **C62**: `zero_matsubara::i_m_m_i`. -/
theorem C62_zero_matsubara_i_m_m_i {q p : ℝ} (hq : 0 < q) (hp : p ≠ 0) (m1 m2 : ℝ)
    (h : Spec.Regular q 0 p m1 m2) (beta : ℝ) :
    thermal.zero_matsubara.i_m_m_i q p m1 m2 beta = Spec.loop Spec.scalar q 0 p m1 m2 beta := by
  have hp' : (p : ℂ) ≠ 0 := by exact_mod_cast hp
  have hq0 : (q : ℂ) ≠ 0 := by exact_mod_cast hq.ne'
  rw [Spec.loop, leg_scalar hq.ne' hp' h.1, leg_scalar hq.ne' hp' h.2]
  simp only [neg_zero, TL_zero_om h.1, TL_zero_om h.2]
  simp only [thermal.zero_matsubara.i_m_m_i, z0_tlog_eq, z0_tlog_same_mass_eq, z0_tlog_zero_mass_eq, z0_tlog_t_eq, z0_tlog_t_same_mass_eq, z0_tlog_t_zero_mass_eq, map_add, map_sub, map_inv₀, map_mul, toC_ofR, toC_neg', toC_bose, toC_energy, map_div₀, toC_real, toC_complex, ofR_complex, ofR_real, Complex.ofReal_mul, Complex.ofReal_add, Complex.ofReal_sub, Complex.ofReal_div, Complex.ofReal_neg, Complex.ofReal_inv, Complex.ofReal_ofNat, Complex.ofReal_zero, neg_sub, toC_zero, mul_zero, zero_mul, sub_zero, zero_sub, sub_self, ofReal_bose, ofReal_energy]
  first | ring1 | (field_simp; done) | (field_simp; ring1)

/-- **C62**: `zero_matsubara::i_m_m_i_same_mass`. -/
theorem C62_zero_matsubara_i_m_m_i_same_mass {q p : ℝ} (hq : 0 < q) (hp : p ≠ 0) (m : ℝ)
    (h : Spec.Regular q 0 p m m) (beta : ℝ) :
    ((thermal.zero_matsubara.i_m_m_i_same_mass q p m beta : ℝ) : ℂ) = Spec.loop Spec.scalar q 0 p m m beta := by
  have hp' : (p : ℂ) ≠ 0 := by exact_mod_cast hp
  have hq0 : (q : ℂ) ≠ 0 := by exact_mod_cast hq.ne'
  rw [Spec.loop, leg_scalar hq.ne' hp' h.1]
  simp only [neg_zero, TL_zero_om h.1]
  simp only [thermal.zero_matsubara.i_m_m_i_same_mass, z0_tlog_eq, z0_tlog_same_mass_eq, z0_tlog_zero_mass_eq, z0_tlog_t_eq, z0_tlog_t_same_mass_eq, z0_tlog_t_zero_mass_eq, map_add, map_sub, map_inv₀, map_mul, toC_ofR, toC_neg', toC_bose, toC_energy, map_div₀, toC_real, toC_complex, ofR_complex, ofR_real, Complex.ofReal_mul, Complex.ofReal_add, Complex.ofReal_sub, Complex.ofReal_div, Complex.ofReal_neg, Complex.ofReal_inv, Complex.ofReal_ofNat, Complex.ofReal_zero, neg_sub, toC_zero, mul_zero, zero_mul, sub_zero, zero_sub, sub_self, ofReal_bose, ofReal_energy]
  first | ring1 | (field_simp; done) | (field_simp; ring1)

/-- **C62**: `zero_matsubara::i_m_0_i`. -/
theorem C62_zero_matsubara_i_m_0_i {q p : ℝ} (hq : 0 < q) (hp : p ≠ 0) (m : ℝ)
    (h : Spec.Regular q 0 p m (0 : ℝ)) (beta : ℝ) :
    thermal.zero_matsubara.i_m_0_i q p m beta = Spec.loop Spec.scalar q 0 p m (0 : ℝ) beta := by
  have hp' : (p : ℂ) ≠ 0 := by exact_mod_cast hp
  have hq0 : (q : ℂ) ≠ 0 := by exact_mod_cast hq.ne'
  have e0 : energy q (0 : ℂ) = (q : ℂ) := energy_zero hq.le
  rw [Spec.loop, leg_scalar hq.ne' hp' h.1, leg_scalar hq.ne' hp' h.2]
  simp only [neg_zero, TL_zero_om h.1, TL_zero_om h.2]
  simp only [thermal.zero_matsubara.i_m_0_i, z0_tlog_eq, z0_tlog_same_mass_eq, z0_tlog_zero_mass_eq, z0_tlog_t_eq, z0_tlog_t_same_mass_eq, z0_tlog_t_zero_mass_eq, map_add, map_sub, map_inv₀, map_mul, toC_ofR, toC_neg', toC_bose, toC_energy, map_div₀, toC_real, toC_complex, ofR_complex, ofR_real, Complex.ofReal_mul, Complex.ofReal_add, Complex.ofReal_sub, Complex.ofReal_div, Complex.ofReal_neg, Complex.ofReal_inv, Complex.ofReal_ofNat, Complex.ofReal_zero, neg_sub, toC_zero, mul_zero, zero_mul, sub_zero, zero_sub, sub_self, ofReal_bose, ofReal_energy, e0]
  first | ring1 | (field_simp; done) | (field_simp; ring1)

/-- **C62**: `zero_matsubara::i_0_0_i`. -/
theorem C62_zero_matsubara_i_0_0_i {q p : ℝ} (hq : 0 < q) (hp : p ≠ 0) 
    (h : Spec.Regular q 0 p (0 : ℝ) (0 : ℝ)) (beta : ℝ) :
    ((thermal.zero_matsubara.i_0_0_i q p  beta : ℝ) : ℂ) = Spec.loop Spec.scalar q 0 p (0 : ℝ) (0 : ℝ) beta := by
  have hp' : (p : ℂ) ≠ 0 := by exact_mod_cast hp
  have hq0 : (q : ℂ) ≠ 0 := by exact_mod_cast hq.ne'
  have e0 : energy q (0 : ℂ) = (q : ℂ) := energy_zero hq.le
  rw [Spec.loop, leg_scalar hq.ne' hp' h.1]
  simp only [neg_zero, TL_zero_om h.1]
  simp only [thermal.zero_matsubara.i_0_0_i, z0_tlog_eq, z0_tlog_same_mass_eq, z0_tlog_zero_mass_eq, z0_tlog_t_eq, z0_tlog_t_same_mass_eq, z0_tlog_t_zero_mass_eq, map_add, map_sub, map_inv₀, map_mul, toC_ofR, toC_neg', toC_bose, toC_energy, map_div₀, toC_real, toC_complex, ofR_complex, ofR_real, Complex.ofReal_mul, Complex.ofReal_add, Complex.ofReal_sub, Complex.ofReal_div, Complex.ofReal_neg, Complex.ofReal_inv, Complex.ofReal_ofNat, Complex.ofReal_zero, neg_sub, toC_zero, mul_zero, zero_mul, sub_zero, zero_sub, sub_self, ofReal_bose, ofReal_energy, e0]
  first | ring1 | (field_simp; done) | (field_simp; ring1)

/-- **C62**: `zero_matsubara::i_m_m_l_i`. -/
theorem C62_zero_matsubara_i_m_m_l_i {q p : ℝ} (hq : 0 < q) (hp : p ≠ 0) (m1 m2 : ℝ)
    (h : Spec.Regular q 0 p m1 m2) (beta : ℝ) :
    thermal.zero_matsubara.i_m_m_l_i q p m1 m2 beta = Spec.loop (Spec.longitudinal q 0 p) q 0 p m1 m2 beta := by
  have hp' : (p : ℂ) ≠ 0 := by exact_mod_cast hp
  have hq0 : (q : ℂ) ≠ 0 := by exact_mod_cast hq.ne'
  rw [Spec.loop, leg_longitudinal_zero_om hq.ne' hp' h.1, leg_longitudinal_zero_om hq.ne' hp' h.2]
  simp only [neg_zero, TL_zero_om h.1, TL_zero_om h.2]
  simp only [thermal.zero_matsubara.i_m_m_l_i, z0_tlog_eq, z0_tlog_same_mass_eq, z0_tlog_zero_mass_eq, z0_tlog_t_eq, z0_tlog_t_same_mass_eq, z0_tlog_t_zero_mass_eq, map_add, map_sub, map_inv₀, map_mul, toC_ofR, toC_neg', toC_bose, toC_energy, map_div₀, toC_real, toC_complex, ofR_complex, ofR_real, Complex.ofReal_mul, Complex.ofReal_add, Complex.ofReal_sub, Complex.ofReal_div, Complex.ofReal_neg, Complex.ofReal_inv, Complex.ofReal_ofNat, Complex.ofReal_zero, neg_sub, toC_zero, mul_zero, zero_mul, sub_zero, zero_sub, sub_self, ofReal_bose, ofReal_energy]
  first | ring1 | (field_simp; done) | (field_simp; ring1)

/-- **C62**: `zero_matsubara::i_m_m_l_i_same_mass`. -/
theorem C62_zero_matsubara_i_m_m_l_i_same_mass {q p : ℝ} (hq : 0 < q) (hp : p ≠ 0) (m : ℝ)
    (h : Spec.Regular q 0 p m m) (beta : ℝ) :
    ((thermal.zero_matsubara.i_m_m_l_i_same_mass q p m beta : ℝ) : ℂ) = Spec.loop (Spec.longitudinal q 0 p) q 0 p m m beta := by
  have hp' : (p : ℂ) ≠ 0 := by exact_mod_cast hp
  have hq0 : (q : ℂ) ≠ 0 := by exact_mod_cast hq.ne'
  rw [Spec.loop, leg_longitudinal_zero_om hq.ne' hp' h.1]
  simp only [neg_zero, TL_zero_om h.1]
  simp only [thermal.zero_matsubara.i_m_m_l_i_same_mass, z0_tlog_eq, z0_tlog_same_mass_eq, z0_tlog_zero_mass_eq, z0_tlog_t_eq, z0_tlog_t_same_mass_eq, z0_tlog_t_zero_mass_eq, map_add, map_sub, map_inv₀, map_mul, toC_ofR, toC_neg', toC_bose, toC_energy, map_div₀, toC_real, toC_complex, ofR_complex, ofR_real, Complex.ofReal_mul, Complex.ofReal_add, Complex.ofReal_sub, Complex.ofReal_div, Complex.ofReal_neg, Complex.ofReal_inv, Complex.ofReal_ofNat, Complex.ofReal_zero, neg_sub, toC_zero, mul_zero, zero_mul, sub_zero, zero_sub, sub_self, ofReal_bose, ofReal_energy]
  first | ring1 | (field_simp; done) | (field_simp; ring1)

/-- **C62**: `zero_matsubara::i_m_0_l_i`. -/
theorem C62_zero_matsubara_i_m_0_l_i {q p : ℝ} (hq : 0 < q) (hp : p ≠ 0) (m : ℝ)
    (h : Spec.Regular q 0 p m (0 : ℝ)) (beta : ℝ) :
    thermal.zero_matsubara.i_m_0_l_i q p m beta = Spec.loop (Spec.longitudinal q 0 p) q 0 p m (0 : ℝ) beta := by
  have hp' : (p : ℂ) ≠ 0 := by exact_mod_cast hp
  have hq0 : (q : ℂ) ≠ 0 := by exact_mod_cast hq.ne'
  have e0 : energy q (0 : ℂ) = (q : ℂ) := energy_zero hq.le
  rw [Spec.loop, leg_longitudinal_zero_om hq.ne' hp' h.1, leg_longitudinal_zero_om hq.ne' hp' h.2]
  simp only [neg_zero, TL_zero_om h.1, TL_zero_om h.2]
  simp only [thermal.zero_matsubara.i_m_0_l_i, z0_tlog_eq, z0_tlog_same_mass_eq, z0_tlog_zero_mass_eq, z0_tlog_t_eq, z0_tlog_t_same_mass_eq, z0_tlog_t_zero_mass_eq, map_add, map_sub, map_inv₀, map_mul, toC_ofR, toC_neg', toC_bose, toC_energy, map_div₀, toC_real, toC_complex, ofR_complex, ofR_real, Complex.ofReal_mul, Complex.ofReal_add, Complex.ofReal_sub, Complex.ofReal_div, Complex.ofReal_neg, Complex.ofReal_inv, Complex.ofReal_ofNat, Complex.ofReal_zero, neg_sub, toC_zero, mul_zero, zero_mul, sub_zero, zero_sub, sub_self, ofReal_bose, ofReal_energy, e0]
  first | ring1 | (field_simp; done) | (field_simp; ring1)

/-- **C62**: `zero_matsubara::i_0_0_l_i`. -/
theorem C62_zero_matsubara_i_0_0_l_i {q p : ℝ} (hq : 0 < q) (hp : p ≠ 0) 
    (h : Spec.Regular q 0 p (0 : ℝ) (0 : ℝ)) (beta : ℝ) :
    ((thermal.zero_matsubara.i_0_0_l_i q p  beta : ℝ) : ℂ) = Spec.loop (Spec.longitudinal q 0 p) q 0 p (0 : ℝ) (0 : ℝ) beta := by
  have hp' : (p : ℂ) ≠ 0 := by exact_mod_cast hp
  have hq0 : (q : ℂ) ≠ 0 := by exact_mod_cast hq.ne'
  have e0 : energy q (0 : ℂ) = (q : ℂ) := energy_zero hq.le
  rw [Spec.loop, leg_longitudinal_zero_om hq.ne' hp' h.1]
  simp only [neg_zero, TL_zero_om h.1]
  simp only [thermal.zero_matsubara.i_0_0_l_i, z0_tlog_eq, z0_tlog_same_mass_eq, z0_tlog_zero_mass_eq, z0_tlog_t_eq, z0_tlog_t_same_mass_eq, z0_tlog_t_zero_mass_eq, map_add, map_sub, map_inv₀, map_mul, toC_ofR, toC_neg', toC_bose, toC_energy, map_div₀, toC_real, toC_complex, ofR_complex, ofR_real, Complex.ofReal_mul, Complex.ofReal_add, Complex.ofReal_sub, Complex.ofReal_div, Complex.ofReal_neg, Complex.ofReal_inv, Complex.ofReal_ofNat, Complex.ofReal_zero, neg_sub, toC_zero, mul_zero, zero_mul, sub_zero, zero_sub, sub_self, ofReal_bose, ofReal_energy, e0]
  first | ring1 | (field_simp; done) | (field_simp; ring1)

/-- **C62**: `zero_matsubara::i_m_m_t_i`. -/
theorem C62_zero_matsubara_i_m_m_t_i {q p : ℝ} (hq : 0 < q) (hp : p ≠ 0) (m1 m2 : ℝ)
    (h : Spec.Regular q 0 p m1 m2) (beta : ℝ) :
    thermal.zero_matsubara.i_m_m_t_i q p m1 m2 beta = Spec.loop (Spec.transverse q) q 0 p m1 m2 beta := by
  have hp' : (p : ℂ) ≠ 0 := by exact_mod_cast hp
  have hq0 : (q : ℂ) ≠ 0 := by exact_mod_cast hq.ne'
  rw [Spec.loop, leg_transverse hq.ne' hp' h.1, leg_transverse hq.ne' hp' h.2]
  simp only [neg_zero, TL_zero_om h.1, TL_zero_om h.2]
  simp only [R0]
  simp only [thermal.zero_matsubara.i_m_m_t_i, z0_tlog_eq, z0_tlog_same_mass_eq, z0_tlog_zero_mass_eq, z0_tlog_t_eq, z0_tlog_t_same_mass_eq, z0_tlog_t_zero_mass_eq, map_add, map_sub, map_inv₀, map_mul, toC_ofR, toC_neg', toC_bose, toC_energy, map_div₀, toC_real, toC_complex, ofR_complex, ofR_real, Complex.ofReal_mul, Complex.ofReal_add, Complex.ofReal_sub, Complex.ofReal_div, Complex.ofReal_neg, Complex.ofReal_inv, Complex.ofReal_ofNat, Complex.ofReal_zero, neg_sub, toC_zero, mul_zero, zero_mul, sub_zero, zero_sub, sub_self, ofReal_bose, ofReal_energy]
  first | ring1 | (field_simp; done) | (field_simp; ring1)

/-- **C62**: `zero_matsubara::i_m_m_t_i_same_mass`. -/
theorem C62_zero_matsubara_i_m_m_t_i_same_mass {q p : ℝ} (hq : 0 < q) (hp : p ≠ 0) (m : ℝ)
    (h : Spec.Regular q 0 p m m) (beta : ℝ) :
    ((thermal.zero_matsubara.i_m_m_t_i_same_mass q p m beta : ℝ) : ℂ) = Spec.loop (Spec.transverse q) q 0 p m m beta := by
  have hp' : (p : ℂ) ≠ 0 := by exact_mod_cast hp
  have hq0 : (q : ℂ) ≠ 0 := by exact_mod_cast hq.ne'
  rw [Spec.loop, leg_transverse hq.ne' hp' h.1]
  simp only [neg_zero, TL_zero_om h.1]
  simp only [R0]
  simp only [thermal.zero_matsubara.i_m_m_t_i_same_mass, z0_tlog_eq, z0_tlog_same_mass_eq, z0_tlog_zero_mass_eq, z0_tlog_t_eq, z0_tlog_t_same_mass_eq, z0_tlog_t_zero_mass_eq, map_add, map_sub, map_inv₀, map_mul, toC_ofR, toC_neg', toC_bose, toC_energy, map_div₀, toC_real, toC_complex, ofR_complex, ofR_real, Complex.ofReal_mul, Complex.ofReal_add, Complex.ofReal_sub, Complex.ofReal_div, Complex.ofReal_neg, Complex.ofReal_inv, Complex.ofReal_ofNat, Complex.ofReal_zero, neg_sub, toC_zero, mul_zero, zero_mul, sub_zero, zero_sub, sub_self, ofReal_bose, ofReal_energy]
  first | ring1 | (field_simp; done) | (field_simp; ring1)

/-- **C62**: `zero_matsubara::i_m_0_t_i`. -/
theorem C62_zero_matsubara_i_m_0_t_i {q p : ℝ} (hq : 0 < q) (hp : p ≠ 0) (m : ℝ)
    (h : Spec.Regular q 0 p m (0 : ℝ)) (beta : ℝ) :
    thermal.zero_matsubara.i_m_0_t_i q p m beta = Spec.loop (Spec.transverse q) q 0 p m (0 : ℝ) beta := by
  have hp' : (p : ℂ) ≠ 0 := by exact_mod_cast hp
  have hq0 : (q : ℂ) ≠ 0 := by exact_mod_cast hq.ne'
  have e0 : energy q (0 : ℂ) = (q : ℂ) := energy_zero hq.le
  rw [Spec.loop, leg_transverse hq.ne' hp' h.1, leg_transverse hq.ne' hp' h.2]
  simp only [neg_zero, TL_zero_om h.1, TL_zero_om h.2]
  simp only [R0]
  simp only [thermal.zero_matsubara.i_m_0_t_i, z0_tlog_eq, z0_tlog_same_mass_eq, z0_tlog_zero_mass_eq, z0_tlog_t_eq, z0_tlog_t_same_mass_eq, z0_tlog_t_zero_mass_eq, map_add, map_sub, map_inv₀, map_mul, toC_ofR, toC_neg', toC_bose, toC_energy, map_div₀, toC_real, toC_complex, ofR_complex, ofR_real, Complex.ofReal_mul, Complex.ofReal_add, Complex.ofReal_sub, Complex.ofReal_div, Complex.ofReal_neg, Complex.ofReal_inv, Complex.ofReal_ofNat, Complex.ofReal_zero, neg_sub, toC_zero, mul_zero, zero_mul, sub_zero, zero_sub, sub_self, ofReal_bose, ofReal_energy, e0]
  first | ring1 | (field_simp; done) | (field_simp; ring1)

/-- **C62**: `zero_matsubara::i_0_0_t_i`. -/
theorem C62_zero_matsubara_i_0_0_t_i {q p : ℝ} (hq : 0 < q) (hp : p ≠ 0) 
    (h : Spec.Regular q 0 p (0 : ℝ) (0 : ℝ)) (beta : ℝ) :
    ((thermal.zero_matsubara.i_0_0_t_i q p  beta : ℝ) : ℂ) = Spec.loop (Spec.transverse q) q 0 p (0 : ℝ) (0 : ℝ) beta := by
  have hp' : (p : ℂ) ≠ 0 := by exact_mod_cast hp
  have hq0 : (q : ℂ) ≠ 0 := by exact_mod_cast hq.ne'
  have e0 : energy q (0 : ℂ) = (q : ℂ) := energy_zero hq.le
  rw [Spec.loop, leg_transverse hq.ne' hp' h.1]
  simp only [neg_zero, TL_zero_om h.1]
  simp only [R0]
  simp only [thermal.zero_matsubara.i_0_0_t_i, z0_tlog_eq, z0_tlog_same_mass_eq, z0_tlog_zero_mass_eq, z0_tlog_t_eq, z0_tlog_t_same_mass_eq, z0_tlog_t_zero_mass_eq, map_add, map_sub, map_inv₀, map_mul, toC_ofR, toC_neg', toC_bose, toC_energy, map_div₀, toC_real, toC_complex, ofR_complex, ofR_real, Complex.ofReal_mul, Complex.ofReal_add, Complex.ofReal_sub, Complex.ofReal_div, Complex.ofReal_neg, Complex.ofReal_inv, Complex.ofReal_ofNat, Complex.ofReal_zero, neg_sub, toC_zero, mul_zero, zero_mul, sub_zero, zero_sub, sub_self, ofReal_bose, ofReal_energy, e0]
  first | ring1 | (field_simp; done) | (field_simp; ring1)

end Qcd
