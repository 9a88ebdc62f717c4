import Verif.Lemmas.Angular
import Verif.Props.ThermalAlgebra

/-! # C62: the thermal integrands are the angular integrals of the thermal one-loop diagrams

Specification: `Verif/Spec/ThermalLoop.lean`. -/

namespace Qcd
open MeasureTheory intervalIntegral

/-! ### Closed forms of the legs -/

theorem pi2_cast : ((PI2 : ℝ) : ℂ) = (Real.pi : ℂ) ^ 2 := by simp [PI2]; ring

theorem leg_scalar {q : ℝ} {om p m m' : ℂ} (hq : q ≠ 0) (hp : p ≠ 0) (h : Spec.RegularLeg q om p m m') (beta : ℝ) :
    Spec.leg Spec.scalar q om p m m' beta =
      (q : ℂ) / (16 * PI2 * p) * (bose_distribution_zero_chempot (energy q m) beta / energy q m) *
      (TL q om p (energy q m) (m' * m' - m * m) + TL q (-om) p (energy q m) (m' * m' - m * m)) := by
  have hq' : (q : ℂ) ≠ 0 := by exact_mod_cast hq
  have hb : 2 * (q : ℂ) * p ≠ 0 := mul_ne_zero (mul_ne_zero two_ne_zero hq') hp
  rw [Spec.leg, int_pole2 hb h.poles 1 0 0 1 0 0, TL_eq, TL_eq, spec_en, spec_bose, pi2_cast]
  · field_simp
    ring
  · intro z hz
    rw [den_pos, den_neg]
    simp [Spec.scalar]

theorem leg_longitudinal {q : ℝ} {om p m m' : ℂ} (hq : q ≠ 0) (hp : p ≠ 0) (ho : om ≠ 0) (h : Spec.RegularLeg q om p m m') (beta : ℝ) :
    Spec.leg (Spec.longitudinal q om p) q om p m m' beta =
      om ^ 2 * (q : ℂ) / (64 * PI2 * p ^ 3 * (om ^ 2 + p ^ 2)) * (bose_distribution_zero_chempot (energy q m) beta / energy q m) *
      (PF om p (energy q m) (m' * m' - m * m) ^ 2 * TL q om p (energy q m) (m' * m' - m * m)
        + PF (-om) p (energy q m) (m' * m' - m * m) ^ 2 * TL q (-om) p (energy q m) (m' * m' - m * m)
        - 8 * q * p * (om ^ 2 + p ^ 2 + (m' * m' - m * m))) := by
  have hq' : (q : ℂ) ≠ 0 := by exact_mod_cast hq
  have hb : 2 * (q : ℂ) * p ≠ 0 := mul_ne_zero (mul_ne_zero two_ne_zero hq') hp
  set E := energy q m with hE
  set d := m' * m' - m * m with hd
  have hpp := h.poles
  rw [Spec.leg, int_pole2 hb hpp (om ^ 2 / (4 * p ^ 2 * (om ^ 2 + p ^ 2)) * PF om p E d ^ 2) (om ^ 2 / (4 * p ^ 2 * (om ^ 2 + p ^ 2)) * (-2 * PF om p E d)) (om ^ 2 / (4 * p ^ 2 * (om ^ 2 + p ^ 2)))
    (om ^ 2 / (4 * p ^ 2 * (om ^ 2 + p ^ 2)) * PF (-om) p E d ^ 2) (om ^ 2 / (4 * p ^ 2 * (om ^ 2 + p ^ 2)) * (-2 * PF (-om) p E d)) (om ^ 2 / (4 * p ^ 2 * (om ^ 2 + p ^ 2))), TL_eq, TL_eq, spec_en, spec_bose, pi2_cast, ← hE, ← hd]
  · have hA : R0 om p E d + R0 (-om) p E d = 2 * (om ^ 2 + p ^ 2 + d) := by simp only [R0]; ring
    have hPA : PF om p E d + PF (-om) p E d = 2 * (om ^ 2 + p ^ 2 + d) := by simp only [PF, inv_neg]; ring
    generalize Complex.log ((R0 om p E d + 2 * q * p) / (R0 om p E d - 2 * q * p)) = L1
    generalize Complex.log ((R0 (-om) p E d + 2 * q * p) / (R0 (-om) p E d - 2 * q * p)) = L2
    have hA2 : R0 (-om) p E d = 2 * (om ^ 2 + p ^ 2 + d) - R0 om p E d := by linear_combination hA
    have hP2 : PF (-om) p E d = 2 * (om ^ 2 + p ^ 2 + d) - PF om p E d := by linear_combination hPA
    rw [hA2, hP2]
    generalize PF om p E d = P
    generalize R0 om p E d = A
    generalize (om ^ 2 + p ^ 2) = s
    field_simp
    ring
  · intro z hz
    rw [den_pos, den_neg, ← hE, ← hd]
    obtain ⟨h1, h2⟩ := hpp z hz
    have e1 : p * (Complex.I * Spec.en q m) - om * (q * z) = om / (2 * p) * (PF om p E d - (R0 om p E d + 2 * q * p * z)) := by
      rw [spec_en, ← hE]
      simp only [PF, R0]
      field_simp
      ring
    have e2 : p * (-(Complex.I * Spec.en q m)) - om * (q * z) = om / (2 * p) * (PF (-om) p E d - (R0 (-om) p E d + 2 * q * p * z)) := by
      rw [spec_en, ← hE]
      simp only [PF, R0, inv_neg]
      field_simp
      ring
    simp only [Spec.longitudinal]
    rw [e1, e2]
    generalize PF om p E d = P at *
    generalize PF (-om) p E d = P' at *
    generalize R0 om p E d + 2 * q * p * z = A at *
    generalize R0 (-om) p E d + 2 * q * p * z = A' at *
    generalize (om ^ 2 + p ^ 2) = s at *
    field_simp
    ring

theorem leg_transverse {q : ℝ} {om p m m' : ℂ} (hq : q ≠ 0) (hp : p ≠ 0) (h : Spec.RegularLeg q om p m m') (beta : ℝ) :
    Spec.leg (Spec.transverse q) q om p m m' beta =
      -((q : ℂ) / (128 * PI2 * p ^ 3)) * (bose_distribution_zero_chempot (energy q m) beta / energy q m) *
      ((R0 om p (energy q m) (m' * m' - m * m) ^ 2 - (2 * q * p) ^ 2) * TL q om p (energy q m) (m' * m' - m * m)
        + (R0 (-om) p (energy q m) (m' * m' - m * m) ^ 2 - (2 * q * p) ^ 2) * TL q (-om) p (energy q m) (m' * m' - m * m)
        - 8 * q * p * (om ^ 2 + p ^ 2 + (m' * m' - m * m))) := by
  have hq' : (q : ℂ) ≠ 0 := by exact_mod_cast hq
  have hb : 2 * (q : ℂ) * p ≠ 0 := mul_ne_zero (mul_ne_zero two_ne_zero hq') hp
  set E := energy q m with hE
  set d := m' * m' - m * m with hd
  have hpp := h.poles
  rw [Spec.leg, int_pole2 hb hpp (((2 * q * p) ^ 2 - R0 om p E d ^ 2) / (8 * p ^ 2)) (R0 om p E d / (4 * p ^ 2)) (-1 / (8 * p ^ 2))
    (((2 * q * p) ^ 2 - R0 (-om) p E d ^ 2) / (8 * p ^ 2)) (R0 (-om) p E d / (4 * p ^ 2)) (-1 / (8 * p ^ 2)), TL_eq, TL_eq, spec_en, spec_bose, pi2_cast, ← hE, ← hd]
  · have hA : R0 om p E d + R0 (-om) p E d = 2 * (om ^ 2 + p ^ 2 + d) := by simp only [R0]; ring
    generalize Complex.log ((R0 om p E d + 2 * q * p) / (R0 om p E d - 2 * q * p)) = L1
    generalize Complex.log ((R0 (-om) p E d + 2 * q * p) / (R0 (-om) p E d - 2 * q * p)) = L2
    have hS : om ^ 2 + p ^ 2 + d = (R0 om p E d + R0 (-om) p E d) / 2 := by linear_combination -hA / 2
    rw [hS]
    generalize R0 om p E d = A
    generalize R0 (-om) p E d = A'
    field_simp
    ring
  · intro z hz
    rw [den_pos, den_neg, ← hE, ← hd]
    obtain ⟨h1, h2⟩ := hpp z hz
    simp only [Spec.transverse]
    obtain ⟨D, hD⟩ : ∃ D, D = R0 om p E d + 2 * q * p * z := ⟨_, rfl⟩
    obtain ⟨D', hD'⟩ : ∃ D, D = R0 (-om) p E d + 2 * q * p * z := ⟨_, rfl⟩
    rw [← hD] at h1 ⊢
    rw [← hD'] at h2 ⊢
    rw [show R0 om p E d = D - 2 * q * p * z by rw [hD]; ring,
      show R0 (-om) p E d = D' - 2 * q * p * z by rw [hD']; ring]
    field_simp
    ring

/-! ### The integrands, general momentum and frequency

`T1 T2 T3` are any of the numeric types of the library (`R` or `C`). -/

variable {T T1 T2 T3 : Type} [Num T] [Num T1] [Num T2] [Num T3]

/-- **C62**: `i_m_m_i` is the angular integral of the scalar loop. -/
theorem C62_i_m_m_i {q p : ℝ} {om : T1} {m1 : T2} {m2 : T3} (hq : q ≠ 0) (hp : p ≠ 0)
    (h : Spec.Regular q (toC om) p (toC m1) (toC m2)) (beta : ℝ) :
    thermal.i_m_m_i q om p m1 m2 beta = Spec.loop Spec.scalar q (toC om) p (toC m1) (toC m2) beta := by
  have hp' : (p : ℂ) ≠ 0 := by exact_mod_cast hp
  rw [Spec.loop, leg_scalar hq hp' h.1, leg_scalar hq hp' h.2]
  simp only [thermal.i_m_m_i, tlog_eq, toC_mul', toC_neg', toC_bose, toC_energy, map_div₀, toC_real, toC_complex, ofR_complex,
    Complex.ofReal_mul, Complex.ofReal_ofNat, neg_sub]
  field_simp

/-- **C62**: `i_m_m_l_i` is the angular integral of the loop with longitudinal numerator. -/
theorem C62_i_m_m_l_i {q p : ℝ} {om : T1} {m1 : T2} {m2 : T3} (hq : q ≠ 0) (hp : p ≠ 0) (ho : om ≠ 0)
    (h : Spec.Regular q (toC om) p (toC m1) (toC m2)) (beta : ℝ) :
    thermal.i_m_m_l_i q om p m1 m2 beta =
      Spec.loop (Spec.longitudinal q (toC om) p) q (toC om) p (toC m1) (toC m2) beta := by
  have hp' : (p : ℂ) ≠ 0 := by exact_mod_cast hp
  have ho' : toC om ≠ 0 := fun h0 => ho (toC_injective (h0.trans toC_zero.symm))
  rw [Spec.loop, leg_longitudinal hq hp' ho' h.1, leg_longitudinal hq hp' ho' h.2]
  simp only [thermal.i_m_m_l_i, tlog_l_eq, map_add, map_inv₀, map_mul, toC_ofR, toC_neg', toC_bose, toC_energy, map_div₀, toC_real, toC_complex, ofR_complex,
    Complex.ofReal_mul, Complex.ofReal_ofNat, neg_sub]
  ring

/-- **C62**: `i_m_m_t_i` is the angular integral of the loop with transverse numerator. -/
theorem C62_i_m_m_t_i {q p : ℝ} {om : T1} {m1 : T2} {m2 : T3} (hq : q ≠ 0) (hp : p ≠ 0)
    (h : Spec.Regular q (toC om) p (toC m1) (toC m2)) (beta : ℝ) :
    thermal.i_m_m_t_i q om p m1 m2 beta = Spec.loop (Spec.transverse q) q (toC om) p (toC m1) (toC m2) beta := by
  have hp' : (p : ℂ) ≠ 0 := by exact_mod_cast hp
  rw [Spec.loop, leg_transverse hq hp' h.1, leg_transverse hq hp' h.2]
  simp only [thermal.i_m_m_t_i, tlog_t_eq, map_add, map_inv₀, map_mul, toC_ofR, toC_neg', toC_bose, toC_energy, map_div₀, toC_real, toC_complex, ofR_complex,
    Complex.ofReal_mul, Complex.ofReal_neg, Complex.ofReal_inv, Complex.ofReal_ofNat, neg_sub]
  ring

/-- **C62**: `i_m_m_i_same_mass`. -/
theorem C62_i_m_m_i_same_mass {q : ℝ} {om : T1} {p : T2} {m : T3} (hq : q ≠ 0) (hp : p ≠ 0) 
    (h : Spec.Regular q (toC om) (toC p) (toC m) (toC m)) (beta : ℝ) :
    thermal.i_m_m_i_same_mass q om p m beta = Spec.loop Spec.scalar q (toC om) (toC p) (toC m) (toC m) beta := by
  have hp' : toC p ≠ 0 := fun h0 => hp (toC_injective (h0.trans toC_zero.symm))
  rw [Spec.loop, leg_scalar hq hp' h.1]
  simp only [thermal.i_m_m_i_same_mass, tlog_eq, tlog_same_mass_eq, tlog_zero_mass_eq, map_add, map_sub, map_inv₀, map_mul, toC_ofR, toC_neg', toC_bose, toC_energy, map_div₀, toC_real, toC_complex, ofR_complex, Complex.ofReal_mul, Complex.ofReal_neg, Complex.ofReal_inv, Complex.ofReal_ofNat, neg_sub, toC_zero, mul_zero, sub_zero, zero_sub, sub_self, ofReal_bose]
  generalize bose_distribution_zero_chempot (q : ℂ) beta = b at *
  first | (field_simp; done) | ring1 | (field_simp; ring1)

/-- **C62**: `i_m_0_i`. -/
theorem C62_i_m_0_i {q : ℝ} {om : T1} {p : T2} {m : T3} (hq : 0 < q) (hp : p ≠ 0) 
    (h : Spec.Regular q (toC om) (toC p) (toC m) 0) (beta : ℝ) :
    thermal.i_m_0_i q om p m beta = Spec.loop Spec.scalar q (toC om) (toC p) (toC m) 0 beta := by
  have hp' : toC p ≠ 0 := fun h0 => hp (toC_injective (h0.trans toC_zero.symm))
  have e0 : energy q (0 : ℂ) = (q : ℂ) := energy_zero hq.le
  have hq0 : (q : ℂ) ≠ 0 := by exact_mod_cast hq.ne'
  rw [Spec.loop, leg_scalar hq.ne' hp' h.1, leg_scalar hq.ne' hp' h.2]
  simp only [thermal.i_m_0_i, tlog_eq, tlog_same_mass_eq, tlog_zero_mass_eq, map_add, map_sub, map_inv₀, map_mul, toC_ofR, toC_neg', toC_bose, toC_energy, map_div₀, toC_real, toC_complex, ofR_complex, Complex.ofReal_mul, Complex.ofReal_neg, Complex.ofReal_inv, Complex.ofReal_ofNat, neg_sub, toC_zero, mul_zero, sub_zero, zero_sub, sub_self, ofReal_bose, e0]
  generalize bose_distribution_zero_chempot (q : ℂ) beta = b at *
  first | (field_simp; done) | ring1 | (field_simp; ring1)

/-- **C62**: `i_0_0_i`. -/
theorem C62_i_0_0_i {q : ℝ} {om : T1} {p : ℝ}  (hq : 0 < q) (hp : p ≠ 0) 
    (h : Spec.Regular q (toC om) p 0 0) (beta : ℝ) :
    thermal.i_0_0_i q om p beta = Spec.loop Spec.scalar q (toC om) p 0 0 beta := by
  have hp' : (p : ℂ) ≠ 0 := by exact_mod_cast hp
  have e0 : energy q (0 : ℂ) = (q : ℂ) := energy_zero hq.le
  have hq0 : (q : ℂ) ≠ 0 := by exact_mod_cast hq.ne'
  rw [Spec.loop, leg_scalar hq.ne' hp' h.1]
  simp only [thermal.i_0_0_i, tlog_eq, tlog_same_mass_eq, tlog_zero_mass_eq, map_add, map_sub, map_inv₀, map_mul, toC_ofR, toC_neg', toC_bose, toC_energy, map_div₀, toC_real, toC_complex, ofR_complex, Complex.ofReal_mul, Complex.ofReal_neg, Complex.ofReal_inv, Complex.ofReal_ofNat, neg_sub, toC_zero, mul_zero, sub_zero, zero_sub, sub_self, ofReal_bose, e0]
  generalize bose_distribution_zero_chempot (q : ℂ) beta = b at *
  first | (field_simp; done) | ring1 | (field_simp; ring1)

/-- **C62**: `i_m_m_l_i_same_mass`. -/
theorem C62_i_m_m_l_i_same_mass {q : ℝ} {om : T1} {p : T2} {m : T3} (hq : q ≠ 0) (hp : p ≠ 0) (ho : om ≠ 0) 
    (h : Spec.Regular q (toC om) (toC p) (toC m) (toC m)) (beta : ℝ) :
    thermal.i_m_m_l_i_same_mass q om p m beta = Spec.loop (Spec.longitudinal q (toC om) (toC p)) q (toC om) (toC p) (toC m) (toC m) beta := by
  have hp' : toC p ≠ 0 := fun h0 => hp (toC_injective (h0.trans toC_zero.symm))
  have ho' : toC om ≠ 0 := fun h0 => ho (toC_injective (h0.trans toC_zero.symm))
  rw [Spec.loop, leg_longitudinal hq hp' ho' h.1]
  simp only [thermal.i_m_m_l_i_same_mass, tlog_l_eq, tlog_l_same_mass_eq, tlog_l_zero_mass_eq, map_add, map_sub, map_inv₀, map_mul, toC_ofR, toC_neg', toC_bose, toC_energy, map_div₀, toC_real, toC_complex, ofR_complex, Complex.ofReal_mul, Complex.ofReal_neg, Complex.ofReal_inv, Complex.ofReal_ofNat, neg_sub, toC_zero, mul_zero, sub_zero, zero_sub, sub_self, ofReal_bose]
  generalize bose_distribution_zero_chempot (q : ℂ) beta = b at *
  obtain ⟨om, hom⟩ : ∃ x, x = toC om := ⟨_, rfl⟩
  obtain ⟨p, hpp⟩ : ∃ x, x = toC p := ⟨_, rfl⟩
  simp only [← hom, ← hpp] at *
  rw [show om * om + p * p = om ^ 2 + p ^ 2 by ring]
  generalize om ^ 2 + p ^ 2 = s
  first | (field_simp; done) | ring1 | (field_simp; ring1)

/-- **C62**: `i_m_0_l_i`. -/
theorem C62_i_m_0_l_i {q : ℝ} {om : T1} {p : T2} {m : T3} (hq : 0 < q) (hp : p ≠ 0) (ho : om ≠ 0) 
    (h : Spec.Regular q (toC om) (toC p) (toC m) 0) (beta : ℝ) :
    thermal.i_m_0_l_i q om p m beta = Spec.loop (Spec.longitudinal q (toC om) (toC p)) q (toC om) (toC p) (toC m) 0 beta := by
  have hp' : toC p ≠ 0 := fun h0 => hp (toC_injective (h0.trans toC_zero.symm))
  have ho' : toC om ≠ 0 := fun h0 => ho (toC_injective (h0.trans toC_zero.symm))
  have e0 : energy q (0 : ℂ) = (q : ℂ) := energy_zero hq.le
  have hq0 : (q : ℂ) ≠ 0 := by exact_mod_cast hq.ne'
  rw [Spec.loop, leg_longitudinal hq.ne' hp' ho' h.1, leg_longitudinal hq.ne' hp' ho' h.2]
  simp only [thermal.i_m_0_l_i, tlog_l_eq, tlog_l_same_mass_eq, tlog_l_zero_mass_eq, map_add, map_sub, map_inv₀, map_mul, toC_ofR, toC_neg', toC_bose, toC_energy, map_div₀, toC_real, toC_complex, ofR_complex, Complex.ofReal_mul, Complex.ofReal_neg, Complex.ofReal_inv, Complex.ofReal_ofNat, neg_sub, toC_zero, mul_zero, sub_zero, zero_sub, sub_self, ofReal_bose, e0]
  generalize bose_distribution_zero_chempot (q : ℂ) beta = b at *
  obtain ⟨om, hom⟩ : ∃ x, x = toC om := ⟨_, rfl⟩
  obtain ⟨p, hpp⟩ : ∃ x, x = toC p := ⟨_, rfl⟩
  simp only [← hom, ← hpp] at *
  rw [show om * om + p * p = om ^ 2 + p ^ 2 by ring]
  generalize om ^ 2 + p ^ 2 = s
  first | (field_simp; done) | ring1 | (field_simp; ring1)

/-- **C62**: `i_0_0_l_i`. -/
theorem C62_i_0_0_l_i {q : ℝ} {om : T1} {p : T2}  (hq : 0 < q) (hp : p ≠ 0) (ho : om ≠ 0) 
    (h : Spec.Regular q (toC om) (toC p) 0 0) (beta : ℝ) :
    thermal.i_0_0_l_i q om p beta = Spec.loop (Spec.longitudinal q (toC om) (toC p)) q (toC om) (toC p) 0 0 beta := by
  have hp' : toC p ≠ 0 := fun h0 => hp (toC_injective (h0.trans toC_zero.symm))
  have ho' : toC om ≠ 0 := fun h0 => ho (toC_injective (h0.trans toC_zero.symm))
  have e0 : energy q (0 : ℂ) = (q : ℂ) := energy_zero hq.le
  have hq0 : (q : ℂ) ≠ 0 := by exact_mod_cast hq.ne'
  rw [Spec.loop, leg_longitudinal hq.ne' hp' ho' h.1]
  simp only [thermal.i_0_0_l_i, tlog_l_eq, tlog_l_same_mass_eq, tlog_l_zero_mass_eq, map_add, map_sub, map_inv₀, map_mul, toC_ofR, toC_neg', toC_bose, toC_energy, map_div₀, toC_real, toC_complex, ofR_complex, Complex.ofReal_mul, Complex.ofReal_neg, Complex.ofReal_inv, Complex.ofReal_ofNat, neg_sub, toC_zero, mul_zero, sub_zero, zero_sub, sub_self, ofReal_bose, e0]
  generalize bose_distribution_zero_chempot (q : ℂ) beta = b at *
  obtain ⟨om, hom⟩ : ∃ x, x = toC om := ⟨_, rfl⟩
  obtain ⟨p, hpp⟩ : ∃ x, x = toC p := ⟨_, rfl⟩
  simp only [← hom, ← hpp] at *
  rw [show om * om + p * p = om ^ 2 + p ^ 2 by ring]
  generalize om ^ 2 + p ^ 2 = s
  first | (field_simp; done) | ring1 | (field_simp; ring1)

/-- **C62**: `i_m_m_t_i_same_mass`. -/
theorem C62_i_m_m_t_i_same_mass {q : ℝ} {om : T1} {p : ℝ} {m : T3} (hq : q ≠ 0) (hp : p ≠ 0) 
    (h : Spec.Regular q (toC om) p (toC m) (toC m)) (beta : ℝ) :
    thermal.i_m_m_t_i_same_mass q om p m beta = Spec.loop (Spec.transverse q) q (toC om) p (toC m) (toC m) beta := by
  have hp' : (p : ℂ) ≠ 0 := by exact_mod_cast hp
  rw [Spec.loop, leg_transverse hq hp' h.1]
  simp only [thermal.i_m_m_t_i_same_mass, tlog_t_eq, tlog_t_same_mass_eq, tlog_t_zero_mass_eq, map_add, map_sub, map_inv₀, map_mul, toC_ofR, toC_neg', toC_bose, toC_energy, map_div₀, toC_real, toC_complex, ofR_complex, Complex.ofReal_mul, Complex.ofReal_neg, Complex.ofReal_inv, Complex.ofReal_ofNat, neg_sub, toC_zero, mul_zero, sub_zero, zero_sub, sub_self, ofReal_bose]
  generalize bose_distribution_zero_chempot (q : ℂ) beta = b at *
  first | (field_simp; done) | ring1 | (field_simp; ring1)

/-- **C62**: `i_m_0_t_i`. -/
theorem C62_i_m_0_t_i {q : ℝ} {om : T1} {p : ℝ} {m : T3} (hq : 0 < q) (hp : p ≠ 0) 
    (h : Spec.Regular q (toC om) p (toC m) 0) (beta : ℝ) :
    thermal.i_m_0_t_i q om p m beta = Spec.loop (Spec.transverse q) q (toC om) p (toC m) 0 beta := by
  have hp' : (p : ℂ) ≠ 0 := by exact_mod_cast hp
  have e0 : energy q (0 : ℂ) = (q : ℂ) := energy_zero hq.le
  have hq0 : (q : ℂ) ≠ 0 := by exact_mod_cast hq.ne'
  rw [Spec.loop, leg_transverse hq.ne' hp' h.1, leg_transverse hq.ne' hp' h.2]
  simp only [thermal.i_m_0_t_i, tlog_t_eq, tlog_t_same_mass_eq, tlog_t_zero_mass_eq, map_add, map_sub, map_inv₀, map_mul, toC_ofR, toC_neg', toC_bose, toC_energy, map_div₀, toC_real, toC_complex, ofR_complex, Complex.ofReal_mul, Complex.ofReal_neg, Complex.ofReal_inv, Complex.ofReal_ofNat, neg_sub, toC_zero, mul_zero, sub_zero, zero_sub, sub_self, ofReal_bose, e0]
  generalize bose_distribution_zero_chempot (q : ℂ) beta = b at *
  first | (field_simp; done) | ring1 | (field_simp; ring1)

/-- **C62**: `i_0_0_t_i`. -/
theorem C62_i_0_0_t_i {q : ℝ} {om : T1} {p : ℝ}  (hq : 0 < q) (hp : p ≠ 0) 
    (h : Spec.Regular q (toC om) p 0 0) (beta : ℝ) :
    thermal.i_0_0_t_i q om p beta = Spec.loop (Spec.transverse q) q (toC om) p 0 0 beta := by
  have hp' : (p : ℂ) ≠ 0 := by exact_mod_cast hp
  have e0 : energy q (0 : ℂ) = (q : ℂ) := energy_zero hq.le
  have hq0 : (q : ℂ) ≠ 0 := by exact_mod_cast hq.ne'
  rw [Spec.loop, leg_transverse hq.ne' hp' h.1]
  simp only [thermal.i_0_0_t_i, tlog_t_eq, tlog_t_same_mass_eq, tlog_t_zero_mass_eq, map_add, map_sub, map_inv₀, map_mul, toC_ofR, toC_neg', toC_bose, toC_energy, map_div₀, toC_real, toC_complex, ofR_complex, Complex.ofReal_mul, Complex.ofReal_neg, Complex.ofReal_inv, Complex.ofReal_ofNat, neg_sub, toC_zero, mul_zero, sub_zero, zero_sub, sub_self, ofReal_bose, e0]
  generalize bose_distribution_zero_chempot (q : ℂ) beta = b at *
  first | (field_simp; done) | ring1 | (field_simp; ring1)

end Qcd
