import Verif.Lemmas.HtlParts
import Verif.Props.HighTemperature

/-! # The gluon loop and the ghost self-energy at high temperature -/

set_option linter.unusedSimpArgs false

namespace Qcd
open MeasureTheory Filter Topology Set

variable {om p m : ℝ}

theorem hot_ghost (ho : om ≠ 0) (hp : p ≠ 0) (hm : m ≠ 0) :
    Hot (fun b q => ghost.thermal.self_energy_thermal_part_landau_i q om p m b) 0 := by
  have h1 := hot_i_m_0_i ho hp hm
  have h2 := hot_i_0_0_i (om := om) (p := p) ho hp
  have h3 := hot_j_m_i hm
  have h4 := hot_j_0_i
  have h5 := hot_d_i_m_0_i ho hp hm
  have h6 := hot_d_j_m_i hm
  simp only [ghost.thermal.self_energy_thermal_part_landau_i, toC_real, toC_complex, ofR_real, ofR_complex]
  push_cast
  refine (((((h6.const_mul _).add (((h3.sub h4).const_mul _).add (h1.const_mul _))).add (h2.const_mul _)).add (h5.const_mul _))).congr
    (fun b q _ _ => rfl) ?_
  simp

theorem hot_glue_l_value (ho : om ≠ 0) (hp : p ≠ 0) :
    4 * (((om : ℂ) * om * ((p : ℂ) * p * p * (om * om + p * p) * 32 * PI2)⁻¹) * ((om * om + p * p) * (8 * Complex.I * ((om + p * p * (om : ℂ)⁻¹)) * (p * htlK om p 1 0) - 8 * p * ((om * om + p * p) * (om : ℂ)⁻¹ ^ 2) - 8 * p)) * ((Real.pi ^ 2 / 6 : ℝ) : ℂ)) - 1 / 6 = -Spec.htl_l om p 1 := by
  have hs : ((om : ℂ) * om + p * p) ≠ 0 := by
    have : (0 : ℝ) < om * om + p * p := add_pos (mul_self_pos.2 ho) (mul_self_pos.2 hp)
    exact_mod_cast this.ne'
  have hs2 : (om : ℂ) ^ 2 + p ^ 2 ≠ 0 := by rwa [sq, sq]
  have hp' : (p : ℂ) ≠ 0 := Complex.ofReal_ne_zero.2 hp
  have ho' : (om : ℂ) ≠ 0 := Complex.ofReal_ne_zero.2 ho
  have hpi : (Real.pi : ℂ) ≠ 0 := Complex.ofReal_ne_zero.2 Real.pi_ne_zero
  rw [Spec.htl_l, htlK_limit ho hp]
  simp only [PI2]
  push_cast
  generalize Complex.log ((Complex.I * om + p) / (Complex.I * om - p)) = L
  rw [mul_pow, Complex.I_sq]
  field_simp
  ring

theorem hot_glue_t_value (ho : om ≠ 0) (hp : p ≠ 0) :
    4 * ((-((p : ℂ) * p * p * 64 * PI2)⁻¹) * ((om * om + p * p) * (8 * Complex.I * om * (p * htlK om p 1 0) - 16 * p)) * ((Real.pi ^ 2 / 6 : ℝ) : ℂ)) - 1 / 6 = -Spec.htl_t om p 1 := by
  have hp' : (p : ℂ) ≠ 0 := Complex.ofReal_ne_zero.2 hp
  have hpi : (Real.pi : ℂ) ≠ 0 := Complex.ofReal_ne_zero.2 Real.pi_ne_zero
  rw [Spec.htl_t, Spec.htl_l, htlK_limit ho hp]
  simp only [PI2]
  push_cast
  generalize Complex.log ((Complex.I * om + p) / (Complex.I * om - p)) = L
  rw [mul_pow, Complex.I_sq]
  field_simp
  ring

/-- The value of the gluon loop, in terms of the logarithm of the hard thermal loop. -/
theorem hot_glue_l (ho : om ≠ 0) (hp : p ≠ 0) (hm : m ≠ 0) :
    Hot (fun b q => gluon.thermal.polarization_glue_l_thermal_part_landau_i q om p m b) (-Spec.htl_l om p 1) := by
  have h1 := hot_i_0_0_l_i (om := om) (p := p) ho hp
  have h2 := hot_i_m_m_l_i_same_mass ho hp hm
  have h3 := hot_i_m_0_l_i ho hp hm
  have h4 := hot_i_m_m_i_same_mass ho hp hm
  have h5 := hot_i_m_0_i ho hp hm
  have h6 := hot_j_m_i hm
  have h7 := hot_j_0_i
  have h8 := hot_d_i_m_m_l_i_same_mass ho hp hm
  have h9 := hot_d_i_m_0_l_i ho hp hm
  have h10 := hot_d_i_m_m_i_same_mass ho hp hm
  have h11 := hot_d_i_m_0_i ho hp hm
  have h12 := hot_d_j_m_i hm
  have h13 := hot_d2_j_m_i hm
  have ht := hot_j_t hm
  have hl := hot_j_l hm
  have ht1 := hot_d_j_m_t_i hm
  have hl1 := hot_d_j_m_l_i hm
  have ht2 := hot_d2_j_m_t_i hm
  have hl2 := hot_d2_j_m_l_i hm
  simp only [gluon.thermal.polarization_glue_l_thermal_part_landau_i, toC_real, toC_complex, ofR_real, ofR_complex]
  push_cast
  have hs : ((om : ℂ) * om + p * p) ≠ 0 := by
    have : (0 : ℝ) < om * om + p * p := add_pos (mul_self_pos.2 ho) (mul_self_pos.2 hp)
    exact_mod_cast this.ne'
  have hs2 : (om : ℂ) ^ 2 + p ^ 2 ≠ 0 := by rwa [sq, sq]
  have hm' : (m : ℂ) ≠ 0 := Complex.ofReal_ne_zero.2 hm
  have hp' : (p : ℂ) ≠ 0 := Complex.ofReal_ne_zero.2 hp
  have ho' : (om : ℂ) ≠ 0 := Complex.ofReal_ne_zero.2 ho
  have hA : Hot (fun b q => (((om : ℂ) * om + p * p)⁻¹ * (om * om * ((thermal.j_m_t_i q m b : ℝ) : ℂ) + p * p * ((thermal.j_m_l_i q m b : ℝ) : ℂ)) -
      ((om : ℂ) * om + p * p)⁻¹ * (om * om * ((thermal.j_0_t_i q b : ℝ) : ℂ) + p * p * ((thermal.j_0_l_i q b : ℝ) : ℂ))) / (m * m))
      (((om : ℂ) * om + p * p)⁻¹ * (p * p - om * om) * (1 / 24)) :=
    ((((ht.const_mul (om * om)).add (hl.const_mul (p * p))).const_mul ((om : ℂ) * om + p * p)⁻¹).div_const (m * m)).congr
      (fun b q _ _ => by ring) (by field_simp; ring)
  rw [← hot_glue_l_value ho hp]
  generalize (((om : ℂ) * om * ((p : ℂ) * p * p * (om * om + p * p) * 32 * PI2)⁻¹) * ((om * om + p * p) * (8 * Complex.I * ((om + p * p * (om : ℂ)⁻¹)) * (p * htlK om p 1 0) - 8 * p * ((om * om + p * p) * (om : ℂ)⁻¹ ^ 2) - 8 * p)) * ((Real.pi ^ 2 / 6 : ℝ) : ℂ)) = X at *
  refine (((((((((((((hA.add
    ((((ht1.const_mul _).add (hl1.const_mul _)).const_mul _).neg.add (((((ht2.const_mul _).add (hl2.const_mul _)).const_mul _).mul_const _).div_const 2))).add
    (h13.const_mul _)).add (h12.const_mul _)).add ((h7.const_mul _).add ((h6.const_mul _).add (h1.const_mul _)))).add (h2.const_mul _)).add (h3.const_mul _)).add
    (h4.const_mul _)).add (h5.const_mul _)).add (h8.const_mul _)).add (h9.const_mul _)).add (h10.const_mul _)).add (h11.const_mul _))).congr
    (fun b q _ _ => rfl) ?_
  field_simp
  ring

/-- The value of the gluon loop, in terms of the logarithm of the hard thermal loop. -/
theorem hot_glue_t (ho : om ≠ 0) (hp : p ≠ 0) (hm : m ≠ 0) :
    Hot (fun b q => gluon.thermal.polarization_glue_t_thermal_part_landau_i q om p m b) (-Spec.htl_t om p 1) := by
  have h1 := hot_i_0_0_t_i (om := om) (p := p) ho hp
  have h2 := hot_i_m_m_t_i_same_mass ho hp hm
  have h3 := hot_i_m_0_t_i ho hp hm
  have h4 := hot_i_m_m_i_same_mass ho hp hm
  have h5 := hot_i_m_0_i ho hp hm
  have h6 := hot_j_m_i hm
  have h7 := hot_j_0_i
  have h8 := hot_d_i_m_m_t_i_same_mass ho hp hm
  have h9 := hot_d_i_m_0_t_i ho hp hm
  have h10 := hot_d_i_m_m_i_same_mass ho hp hm
  have h11 := hot_d_i_m_0_i ho hp hm
  have h12 := hot_d_j_m_i hm
  have h13 := hot_d2_j_m_i hm
  have ht := hot_j_t hm
  have ht1 := hot_d_j_m_t_i hm
  have ht2 := hot_d2_j_m_t_i hm
  simp only [gluon.thermal.polarization_glue_t_thermal_part_landau_i, toC_real, toC_complex, ofR_real, ofR_complex]
  push_cast
  have hs : ((om : ℂ) * om + p * p) ≠ 0 := by
    have : (0 : ℝ) < om * om + p * p := add_pos (mul_self_pos.2 ho) (mul_self_pos.2 hp)
    exact_mod_cast this.ne'
  have hs2 : (om : ℂ) ^ 2 + p ^ 2 ≠ 0 := by rwa [sq, sq]
  have hm' : (m : ℂ) ≠ 0 := Complex.ofReal_ne_zero.2 hm
  have hp' : (p : ℂ) ≠ 0 := Complex.ofReal_ne_zero.2 hp
  have ho' : (om : ℂ) ≠ 0 := Complex.ofReal_ne_zero.2 ho
  rw [← hot_glue_t_value ho hp]
  generalize ((-((p : ℂ) * p * p * 64 * PI2)⁻¹) * ((om * om + p * p) * (8 * Complex.I * om * (p * htlK om p 1 0) - 16 * p)) * ((Real.pi ^ 2 / 6 : ℝ) : ℂ)) = X at *
  refine (((((((((((((h12.const_mul _).add ((h7.const_mul _).add ((h6.const_mul _).add (h1.const_mul _)))).add (h2.const_mul _)).add (h3.const_mul _)).add
    (h4.const_mul _)).add (h5.const_mul _)).add (h8.const_mul _)).add (h9.const_mul _)).add (h10.const_mul _)).add (h11.const_mul _)).add
    (ht.div_const _)).add (ht1.neg.add ((ht2.mul_const _).div_const 2))).add (h13.const_mul _)).congr
    (fun b q _ _ => rfl) ?_
  field_simp
  ring

end Qcd
