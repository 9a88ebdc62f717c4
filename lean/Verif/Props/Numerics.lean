import Verif.Lemmas.Numerics
import Verif.Props.ThermalAlgebra
import Verif.Model.ThermalParts

/-! # C105: the library and the independent reference program of its tests

`tests/numerics.py` produced the values the unit tests of the library compare with, at a handful
of points. Here the two are compared everywhere. -/

namespace Qcd
open Complex
variable {T T1 T2 T3 T4 : Type} [Num T] [Num T1] [Num T2] [Num T3] [Num T4]

/-- **C105** (tadpoles): the tadpole integrands and their mass derivatives equal the reference
formulas, for every momentum, mass (real or complex, with nonzero energy) and temperature. -/
theorem C105_tadpoles (q : ℝ) (m : T) (beta : ℝ) (he : energy q m ≠ 0) :
    toC (thermal.j_m_i q m beta) = numerics.j_m_i q (toC m) beta ∧
    toC (thermal.j_m_l_i q m beta) = numerics.j_m_l_i q (toC m) beta ∧
    toC (thermal.j_m_t_i q m beta) = numerics.j_m_t_i q (toC m) beta ∧
    toC (thermal.d_j_m_i q m beta) = numerics.d_j_m_i q (toC m) beta ∧
    toC (thermal.d_j_m_l_i q m beta) = numerics.d_j_m_l_i q (toC m) beta ∧
    toC (thermal.d_j_m_t_i q m beta) = numerics.d_j_m_t_i q (toC m) beta ∧
    toC (thermal.d2_j_m_i q m beta) = numerics.d2_j_m_i q (toC m) beta ∧
    toC (thermal.d2_j_m_l_i q m beta) = numerics.d2_j_m_l_i q (toC m) beta ∧
    toC (thermal.d2_j_m_t_i q m beta) = numerics.d2_j_m_t_i q (toC m) beta := by
  have he : energy q (toC m) ≠ 0 := by
    rw [← toC_energy]; exact fun h => he (toC_injective (by rw [h, toC_zero]))
  have hpi : (Real.pi : ℂ) ≠ 0 := Complex.ofReal_ne_zero.2 Real.pi_ne_zero
  simp only [toC_thermal_j_m_i, toC_thermal_j_m_l_i, toC_thermal_j_m_t_i, toC_thermal_d_j_m_i,
    toC_thermal_d_j_m_l_i, toC_thermal_d_j_m_t_i, toC_thermal_d2_j_m_i, toC_thermal_d2_j_m_l_i,
    toC_thermal_d2_j_m_t_i]
  simp only [thermal.j_m_i, thermal.j_m_l_i, thermal.j_m_t_i, thermal.d_j_m_i,
    thermal.d_j_m_l_i, thermal.d_j_m_t_i, thermal.d2_j_m_i, thermal.d2_j_m_l_i, thermal.d2_j_m_t_i,
    numerics.j_m_i, numerics.j_m_l_i, numerics.j_m_t_i, numerics.d_j_m_i,
    numerics.d_j_m_l_i, numerics.d_j_m_t_i, numerics.d2_j_m_i, numerics.d2_j_m_l_i, numerics.d2_j_m_t_i,
    numerics.jnnm, num_bose, num_en, num_bose_neg, ofR_complex, numerics.pi]
  simp only [PI2_cast, Complex.ofReal_mul, Complex.ofReal_ofNat, Complex.ofReal_one]
  refine ⟨?_, ?_, ?_, ?_, ?_, ?_, ?_, ?_, ?_⟩ <;>
    (try field_simp) <;> first | trivial | ring

/-- **C105** (massless tadpole): also the transverse tadpole of a massless particle. -/
theorem C105_massless_tadpole (q : ℝ) (beta : ℝ) (hq : 0 < q) : ((thermal.j_0_t_i q beta : ℝ) : ℂ) = numerics.j_0_t_i q beta := by
  have e0 : energy q (0 : ℝ) = q := energy_zero_real hq.le
  have := (C105_tadpoles q (0 : ℝ) beta (by rw [e0]; exact hq.ne')).2.2.1
  rw [toC_zero] at this
  rw [numerics.j_0_t_i, ← this, ← toC_real]
  congr 1
  simp only [thermal.j_0_t_i, thermal.j_m_t_i, e0, ofR_real]
  field_simp

example := C105_massless_tadpole 1 5 one_pos

/-- **C105** (logarithms): the angular logarithms equal the reference ones; for the longitudinal
one at nonzero frequency. -/
theorem C105_logarithms (q : ℝ) (om : T1) (p : T2) (en : T3) (delta : T4) :
    thermal.tlog q om p en delta = numerics.tlog q (toC om) (toC p) (toC en) (toC delta) ∧
    thermal.tlog_l q om p en delta = numerics.tlog_l2 q (toC om) (toC p) (toC en) (toC delta) ∧
    (om ≠ 0 → thermal.tlog_l q om p en delta = numerics.tlog_l3 q (toC om) (toC p) (toC en) (toC delta)) := by
  refine ⟨by rw [num_tlog, tlog_eq], ?_, fun ho => ?_⟩
  · rw [tlog_l_eq, numerics.tlog_l2, num_tlog, PF]; ring
  · have ho : toC om ≠ 0 := fun h => ho (toC_injective (by rw [h, toC_zero]))
    rw [tlog_l_eq]
    simp only [numerics.tlog_l3, num_tlog, PF, csqrt_sq]
    have : ∀ z : ℂ, (z + Complex.I * toC en) ^ 2 = z ^ 2 + 2 * Complex.I * toC en * z - toC en ^ 2 := by
      intro z; linear_combination (toC en ^ 2) * Complex.I_sq
    rw [this]
    field_simp
    ring

/-- **C105** (logarithms, transverse and with masses): as above; the reference longitudinal
logarithm takes the two masses. -/
theorem C105_logarithms_masses (q : ℝ) (om : T1) (p : ℝ) (en : T3) (delta : T4) (m1 : T2) (m2 : T3) :
    thermal.tlog_t q om p en delta = numerics.tlog_t q (toC om) p (toC en) (toC delta) ∧
    (om ≠ 0 → thermal.tlog_l q om p (energy q m2) (toC m1 * toC m1 - toC m2 * toC m2)
      = numerics.tlog_l q (toC om) p (toC m1) (toC m2)) := by
  refine ⟨?_, fun ho => ?_⟩
  · rw [tlog_t_eq]; simp only [numerics.tlog_t, num_tlog, R0]; ring
  · have ho : toC om ≠ 0 := fun h => ho (toC_injective (by rw [h, toC_zero]))
    rw [tlog_l_eq, toC_energy]
    have e1 : csqrt ((q : ℂ) * q + toC m2 * toC m2) = energy q (toC m2) := by
      rw [← num_en, numerics.en]; congr 1; ring
    simp only [numerics.tlog_l, num_tlog, PF, csqrt_sq, e1, num_z_sq, toC_complex, toC_real]
    field_simp
    ring

/-- **C105** (loop integrands): the general thermal integrands equal the reference formulas; the
longitudinal ones at the frequency the reference program shifts by `eps`. -/
theorem C105_integrals (eps q : ℝ) (om : T1) (p : ℝ) (m1 : T2) (m2 : T3) (beta : ℝ)
    (hp : p ≠ 0) (ho : om + ofR eps ≠ 0) :
    thermal.i_m_m_i q om p m1 m2 beta = numerics.i_m_m_i q (toC om) p (toC m1) (toC m2) beta ∧
    thermal.i_m_m_l_i q (om + ofR eps) p m1 m2 beta
      = numerics.i_m_m_l_i eps q (toC om) p (toC m1) (toC m2) beta ∧
    thermal.i_m_m_t_i q om p m1 m2 beta = numerics.i_m_m_t_i q (toC om) p (toC m1) (toC m2) beta := by
  have hp : (p : ℂ) ≠ 0 := Complex.ofReal_ne_zero.2 hp
  have hpi : (Real.pi : ℂ) ≠ 0 := Complex.ofReal_ne_zero.2 Real.pi_ne_zero
  refine ⟨?_, ?_, ?_⟩
  · rw [toC_thermal_i_m_m_i]
    simp only [thermal.i_m_m_i, numerics.i_m_m_i, num_tlog, tlog_eq, num_bose, num_en, toC_complex,
      toC_real, ofR_complex, numerics.pi]
    push_cast
    simp only [PI2_cast]
    ring_nf
  · rw [toC_thermal_i_m_m_l_i, toC_add', toC_ofR]
    simp only [numerics.i_m_m_l_i]
    have ho : toC om + eps ≠ 0 := by
      rw [← toC_ofR (T := T1) eps, ← toC_add']; exact fun h => ho (toC_injective (by rw [h, toC_zero]))
    generalize toC om + (eps : ℂ) = om at ho ⊢
    have h1 := (C105_logarithms_masses q om p (0 : ℂ) (0 : ℂ) (toC m1) (toC m2)).2 ho
    have h2 := (C105_logarithms_masses q (-om) p (0 : ℂ) (0 : ℂ) (toC m1) (toC m2)).2 (neg_ne_zero.2 ho)
    have h3 := (C105_logarithms_masses q om p (0 : ℂ) (0 : ℂ) (toC m2) (toC m1)).2 ho
    have h4 := (C105_logarithms_masses q (-om) p (0 : ℂ) (0 : ℂ) (toC m2) (toC m1)).2 (neg_ne_zero.2 ho)
    simp only [toC_complex] at h1 h2 h3 h4
    rw [← h1, ← h2, ← h3, ← h4]
    simp only [thermal.i_m_m_l_i, num_bose, num_en, toC_complex,
      toC_real, ofR_complex, numerics.pi, neg_sub]
    push_cast
    simp only [PI2_cast, mul_inv]
    ring
  · rw [toC_thermal_i_m_m_t_i]
    simp only [thermal.i_m_m_t_i, numerics.i_m_m_t_i, ← (C105_logarithms_masses q _ p _ _ (0 : ℂ)
      (0 : ℂ)).1, num_bose, num_en, toC_complex, numerics.tlog_t, num_tlog, tlog_t_eq, tlog_eq, R0,
      toC_real, ofR_complex, numerics.pi]
    push_cast
    simp only [PI2_cast]
    ring_nf

/-- **C105** (mass derivatives of the loop integrands). -/
theorem C105_integrals_derivative (eps q : ℝ) (om : T1) (p : ℝ) (m1 : T2) (m2 : T3) (beta : ℝ)
    (hp : p ≠ 0) :
    thermal.d_i_m_m_i q om p m1 m2 beta = numerics.d_i_m_m_i q (toC om) p (toC m1) (toC m2) beta ∧
    thermal.d_i_m_m_t_i q om p m1 m2 beta = numerics.d_i_m_m_t_i q (toC om) p (toC m1) (toC m2) beta := by
  have hp : (p : ℂ) ≠ 0 := Complex.ofReal_ne_zero.2 hp
  have hpi : (Real.pi : ℂ) ≠ 0 := Complex.ofReal_ne_zero.2 Real.pi_ne_zero
  refine ⟨?_, ?_⟩
  · rw [toC_thermal_d_i_m_m_i]
    simp only [thermal.d_i_m_m_i, numerics.d_i_m_m_i, num_bose, num_en, r_0_eq, toC_complex,
      toC_real, ofR_complex, numerics.pi]
    simp only [← num_en (q + p), ← num_en (q - p), num_den_p, num_den_m]
    push_cast
    simp only [PI2_cast, neg_sub]
    ring
  · rw [toC_thermal_d_i_m_m_t_i]
    simp only [thermal.d_i_m_m_t_i, numerics.d_i_m_m_t_i, num_bose, num_en, r_0_eq, tlog_eq, num_tlog,
      toC_complex, num_r, toC_real, ofR_complex, numerics.pi]
    have e : ∀ a b : ℂ, a ^ 2 - b ^ 2 = a * a - b * b := fun a b => by ring
    push_cast
    simp only [PI2_cast, neg_sub, e]
    field_simp
    ring

/-- **C105** (mass derivative of the longitudinal loop integrand). -/
theorem C105_integrals_derivative_l (eps q : ℝ) (om : T1) (p : ℝ) (m1 : T2) (m2 : T3) (beta : ℝ)
    (hp : p ≠ 0) (ho : om + ofR eps ≠ 0) :
    thermal.d_i_m_m_l_i q (om + ofR eps) p m1 m2 beta
      = numerics.d_i_m_m_l_i eps q (toC om) p (toC m1) (toC m2) beta := by
  have hp : (p : ℂ) ≠ 0 := Complex.ofReal_ne_zero.2 hp
  have hpi : (Real.pi : ℂ) ≠ 0 := Complex.ofReal_ne_zero.2 Real.pi_ne_zero
  rw [toC_thermal_d_i_m_m_l_i, toC_add', toC_ofR]
  simp only [numerics.d_i_m_m_l_i]
  have ho : toC om + eps ≠ 0 := by
    rw [← toC_ofR (T := T1) eps, ← toC_add']; exact fun h => ho (toC_injective (by rw [h, toC_zero]))
  generalize toC om + (eps : ℂ) = om at ho ⊢
  simp only [num_bose, num_en q]
  simp only [num_den_p, num_den_m, num_den_p', num_den_m', num_pf _ _ _ _ _ ho, num_pf' _ _ _ _ _ ho,
    num_tlog]
  simp only [thermal.d_i_m_m_l_i, r_0_eq, tlog_eq, toC_complex, toC_real, ofR_complex, numerics.pi]
  have e : ∀ a b : ℂ, a ^ 2 - b ^ 2 = a * a - b * b := fun a b => by ring
  push_cast
  simp only [PI2_cast, neg_sub, e, mul_inv]
  ring

/-- **C105** (zero momentum): the integrands at zero spatial momentum. -/
theorem C105_zero_momentum (q : ℝ) (om : T1) (m1 : T2) (m2 : T3) (beta : ℝ) :
    thermal.zero_momentum.i_m_m_i q om m1 m2 beta
      = numerics.i_m_m_i_zp q (toC om) (toC m1) (toC m2) beta ∧
    thermal.zero_momentum.i_m_m_l_i q om m1 m2 beta
      = numerics.i_m_m_l_i_zp q (toC om) (toC m1) (toC m2) beta ∧
    thermal.zero_momentum.i_m_m_t_i q om m1 m2 beta
      = numerics.i_m_m_t_i_zp q (toC om) (toC m1) (toC m2) beta ∧
    thermal.zero_momentum.d_i_m_m_i q om m1 m2 beta
      = numerics.d_i_m_m_i_zp q (toC om) (toC m1) (toC m2) beta ∧
    thermal.zero_momentum.d_i_m_m_l_i q om m1 m2 beta
      = numerics.d_i_m_m_l_i_zp q (toC om) (toC m1) (toC m2) beta ∧
    thermal.zero_momentum.d_i_m_m_t_i q om m1 m2 beta
      = numerics.d_i_m_m_l_i_zp q (toC om) (toC m1) (toC m2) beta := by
  have e1 : thermal.zero_momentum.i_m_m_i q om m1 m2 beta
      = numerics.i_m_m_i_zp q (toC om) (toC m1) (toC m2) beta := by
    rw [toC_thermal_zero_momentum_i_m_m_i]
    simp only [thermal.zero_momentum.i_m_m_i, numerics.i_m_m_i_zp, numerics.tlog_1o, num_bose, num_en,
      toC_complex, toC_real, ofR_complex, numerics.pi]
    push_cast
    simp only [PI2_cast, mul_inv]
    ring_nf
  have e2 : thermal.zero_momentum.i_m_m_l_i q om m1 m2 beta
      = numerics.i_m_m_l_i_zp q (toC om) (toC m1) (toC m2) beta := by
    rw [toC_thermal_zero_momentum_i_m_m_l_i]
    simp only [thermal.zero_momentum.i_m_m_l_i, numerics.i_m_m_l_i_zp, num_bose, num_en,
      toC_complex, toC_real, ofR_complex, numerics.pi]
    push_cast
    simp only [PI2_cast, mul_inv]
    ring_nf
  have e5 : thermal.zero_momentum.d_i_m_m_l_i q om m1 m2 beta
      = numerics.d_i_m_m_l_i_zp q (toC om) (toC m1) (toC m2) beta := by
    rw [toC_thermal_zero_momentum_d_i_m_m_l_i]
    have d1 : ∀ o E a b : ℂ, o * o + 2 * Complex.I * E * o + a - b = R0 o 0 E (a - b) := by
      intro o E a b; simp only [R0]; ring
    have d2 : ∀ o E a b : ℂ, o * o - 2 * Complex.I * E * o + a - b = R0 (-o) 0 E (a - b) := by
      intro o E a b; simp only [R0]; ring
    simp only [thermal.zero_momentum.d_i_m_m_l_i, numerics.d_i_m_m_l_i_zp, num_bose, num_en, zm_r_0_eq,
      d1, d2, toC_complex, toC_real, ofR_complex, numerics.pi]
    push_cast
    simp only [PI2_cast, mul_inv, neg_sub]
    ring
  refine ⟨e1, e2, ?_, ?_, e5, e5⟩
  · rw [thermal.zero_momentum.i_m_m_t_i, e2]
    simp only [numerics.i_m_m_l_i_zp, numerics.i_m_m_t_i_zp]
    ring_nf
  · rw [toC_thermal_zero_momentum_d_i_m_m_i]
    simp only [thermal.zero_momentum.d_i_m_m_i, numerics.d_i_m_m_i_zp, num_bose, num_en, zm_r_0_eq,
      num_den_z, toC_complex, toC_real, ofR_complex, numerics.pi]
    push_cast
    simp only [PI2_cast, mul_inv, neg_sub]
    ring

end Qcd
