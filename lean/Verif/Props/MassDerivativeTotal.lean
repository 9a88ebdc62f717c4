import Verif.Props.MassDerivativeSpecial

/-! # C39: equal-mass loops with both masses varied, and closure properties

The library's equal-mass derivative integrands vary the first mass alone; here both propagators carry the varied mass, and the
integrand of the derivative is twice the library's.  Specification: `Verif/Spec/MassDerivative.lean`. -/

set_option linter.unusedSimpArgs false

namespace Qcd
open Filter Topology

theorem Bracket.massDerivSame {om : ℂ} {G Gq GE Gd : ℝ → ℝ → ℝ → ℂ} (hG : Bracket om G Gq GE Gd) {M beta : ℝ} (hb : 0 < beta) (hM : 0 < M)
    (hi : |om.im| < Real.sqrt M) (pref : ℂ) {f : ℝ → ℝ → ℂ} {d : ℝ → ℂ}
    (hf : ∀ q, 0 < q → ∀ M', 0 < M' → f q M' = pref * q * (hB beta (eM q M') * G q (eM q M') 0))
    (hd : ∀ q, 0 < q → d q = pref * (hB beta (eM q M) * (-Gq q (eM q M) 0 / 2))) :
    Spec.IsMassDerivative f d M := by
  have hEi : ∀ q, |om.im| < eM q M := fun q => hi.trans_le (sqrt_le_eM q M)
  choose hB' hBd using fun q => hB_diff hb (eM_pos (q := q) hM)
  refine ⟨fun q => pref * q * (hB' q / (2 * eM q M) * G q (eM q M) 0 + hB beta (eM q M) * (GE q (eM q M) 0 / (2 * eM q M))),
    fun q => pref / 2 * (hB beta (eM q M) * G q (eM q M) 0), ?_, ?_, ?_, ?_⟩
  · intro q hq
    have k1 := ((hBd q).comp M (eM_deriv_M hM)).ofReal_comp
    have k2 := hG.path (hasDerivAt_const M q) (eM_deriv_M (q := q) hM) (hasDerivAt_const M 0) (hEi q)
    have k := (k1.mul k2).const_mul (pref * q)
    refine (k.congr_of_eventuallyEq ?_).congr_deriv ?_
    · filter_upwards [Ioi_mem_nhds hM] with x hx
      rw [hf q hq x hx]
      simp [Function.comp_def]
    · simp only [Function.comp_def, id]
      push_cast
      ring
  · intro q hq
    have k1 := ((hBd q).comp q (eM_deriv_q hM)).ofReal_comp
    have k2 := hG.path (hasDerivAt_id q) (eM_deriv_q (q := q) hM) (hasDerivAt_const q 0) (hEi q)
    have k := (k1.mul k2).const_mul (pref / 2)
    refine (k.congr_of_eventuallyEq ?_).congr_deriv ?_
    · exact Eventually.of_forall fun x => by simp [Function.comp_def]
    · rw [hd q hq]
      simp only [Function.comp_def, id]
      have h0 : (eM q M : ℂ) ≠ 0 := by exact_mod_cast (eM_pos hM).ne'
      push_cast
      field_simp
      ring
  · have h := (((Complex.continuous_ofReal.tendsto _).comp (hB_zero hb hM)).mul (hG.zero hM hi 0)).const_mul (pref / 2)
    simpa [Function.comp_def] using h
  · have h := (hB_mul_tendsto hb hM (hG.growth hM hi 0)).const_mul (pref / 2)
    simpa using h

/-- **C39**: `i_m_m_i_same_mass` with both masses varied. -/
theorem C39_d_i_m_m_i_same_mass_total {om : ℂ} {p M beta : ℝ} (hr : om.re ≠ 0) (hb : 0 < beta) (hM : 0 < M) (hp : p ≠ 0)
    (hi : |om.im| < Real.sqrt M) :
    Spec.IsMassDerivative (fun q M' => thermal.i_m_m_i_same_mass q om p (Real.sqrt M') beta)
      (fun q => 2 * thermal.d_i_m_m_i_same_mass q om p (Real.sqrt M) beta) M := by
  have hp' : (p : ℂ) ≠ 0 := by exact_mod_cast hp
  have hpi : (PI2 : ℂ) ≠ 0 := by rw [pi2_cast]; exact pow_ne_zero 2 (by exact_mod_cast Real.pi_ne_zero)
  refine (bracket_scalar hr p).massDerivSame hb hM hi (1 / (8 * PI2 * p)) ?_ ?_
  · intro q hq M' hM'
    simp only [thermal.i_m_m_i_same_mass, tlog_same_mass_eq, toC_real, toC_complex, ofR_complex, ofR_real, eM_eq hM'.le, hB]
    push_cast
    field_simp
  · intro q hq
    simp only [thermal.d_i_m_m_i_same_mass, r_0_same_mass_eq, toC_real, toC_complex, ofR_complex, ofR_real, eM_eq hM.le, hB, RP, RM]
    push_cast
    simp only [show (2 * (q : ℂ) * p) = p * q * 2 by ring, sub_eq_add_neg, add_comm _ (p * (q : ℂ) * 2), add_comm _ (-(p * (q : ℂ) * 2))]
    generalize (p * (q : ℂ) * 2 + R0 om p (eM q M) 0)⁻¹ = a1
    generalize (-(p * (q : ℂ) * 2) + R0 om p (eM q M) 0)⁻¹ = a2
    generalize (p * (q : ℂ) * 2 + R0 (-om) p (eM q M) 0)⁻¹ = a3
    generalize (-(p * (q : ℂ) * 2) + R0 (-om) p (eM q M) 0)⁻¹ = a4
    field_simp
    ring

/-- **C39**: `i_m_m_l_i_same_mass` with both masses varied. -/
theorem C39_d_i_m_m_l_i_same_mass_total {om : ℂ} {p M beta : ℝ} (hr : om.re ≠ 0) (hb : 0 < beta) (hM : 0 < M) (hp : p ≠ 0)
    (hi : |om.im| < Real.sqrt M) :
    Spec.IsMassDerivative (fun q M' => thermal.i_m_m_l_i_same_mass q om p (Real.sqrt M') beta)
      (fun q => 2 * thermal.d_i_m_m_l_i_same_mass q om p (Real.sqrt M) beta) M := by
  have hp' : (p : ℂ) ≠ 0 := by exact_mod_cast hp
  have hpi : (PI2 : ℂ) ≠ 0 := by rw [pi2_cast]; exact pow_ne_zero 2 (by exact_mod_cast Real.pi_ne_zero)
  refine (bracket_l hr p).massDerivSame hb hM hi (om ^ 2 * (32 * PI2 * p ^ 3 * (om ^ 2 + p ^ 2))⁻¹) ?_ ?_
  · intro q hq M' hM'
    simp only [thermal.i_m_m_l_i_same_mass, tlog_l_same_mass_eq, toC_real, toC_complex, ofR_complex, ofR_real, eM_eq hM'.le, hB]
    push_cast
    rw [show om * om + (p : ℂ) * p = om ^ 2 + (p : ℂ) ^ 2 by ring]
    generalize om ^ 2 + (p : ℂ) ^ 2 = s
    simp only [mul_inv]
    generalize s⁻¹ = si
    field_simp
    ring
  · intro q hq
    simp only [thermal.d_i_m_m_l_i_same_mass, r_0_same_mass_eq, toC_real, toC_complex, ofR_complex, ofR_real, eM_eq hM.le, hB, RP, RM]
    push_cast
    have e1 : ∀ e d : ℂ, R0 om p e d + e * ((p : ℂ) * p * (om⁻¹ * 2 * I)) = PF om p e d := fun e d => by simp only [R0, PF, I]; ring
    have e2 : ∀ e d : ℂ, R0 (-om) p e d - e * ((p : ℂ) * p * (om⁻¹ * 2 * I)) = PF (-om) p e d := fun e d => by simp only [R0, PF, I, inv_neg]; ring
    simp only [e1, e2]
    simp only [show (2 * (q : ℂ) * p) = p * q * 2 by ring, sub_eq_add_neg, add_comm _ (p * (q : ℂ) * 2), add_comm _ (-(p * (q : ℂ) * 2))]
    generalize (p * (q : ℂ) * 2 + R0 om p (eM q M) 0)⁻¹ = a1
    generalize (-(p * (q : ℂ) * 2) + R0 om p (eM q M) 0)⁻¹ = a2
    generalize (p * (q : ℂ) * 2 + R0 (-om) p (eM q M) 0)⁻¹ = a3
    generalize (-(p * (q : ℂ) * 2) + R0 (-om) p (eM q M) 0)⁻¹ = a4
    have hs : om ^ 2 + (p : ℂ) ^ 2 = 0 ∨ om ^ 2 + (p : ℂ) ^ 2 ≠ 0 := em _
    rw [show om * om + (p : ℂ) * p = om ^ 2 + (p : ℂ) ^ 2 by ring]
    generalize om ^ 2 + (p : ℂ) ^ 2 = s at *
    rcases hs with rfl | hs
    · simp
    · field_simp
      ring

/-- **C39**: `i_m_m_t_i_same_mass` with both masses varied. -/
theorem C39_d_i_m_m_t_i_same_mass_total {om : ℂ} {p M beta : ℝ} (hr : om.re ≠ 0) (hb : 0 < beta) (hM : 0 < M) (hp : p ≠ 0)
    (hi : |om.im| < Real.sqrt M) :
    Spec.IsMassDerivative (fun q M' => thermal.i_m_m_t_i_same_mass q om p (Real.sqrt M') beta)
      (fun q => 2 * thermal.d_i_m_m_t_i_same_mass q om p (Real.sqrt M) beta) M := by
  have hp' : (p : ℂ) ≠ 0 := by exact_mod_cast hp
  have hpi : (PI2 : ℂ) ≠ 0 := by rw [pi2_cast]; exact pow_ne_zero 2 (by exact_mod_cast Real.pi_ne_zero)
  refine (bracket_t hr p).massDerivSame hb hM hi (-(64 * (PI2 : ℂ) * (p : ℂ) ^ 3)⁻¹) ?_ ?_
  · intro q hq M' hM'
    simp only [thermal.i_m_m_t_i_same_mass, tlog_t_same_mass_eq, toC_real, toC_complex, ofR_complex, ofR_real, eM_eq hM'.le, hB]
    push_cast
    field_simp
    ring
  · intro q hq
    simp only [thermal.d_i_m_m_t_i_same_mass, tlog_same_mass_eq, r_0_same_mass_eq, toC_real, toC_complex, ofR_complex, ofR_real, eM_eq hM.le, hB, RP, RM]
    push_cast
    field_simp
    ring

end Qcd
