import Verif.Props.MassIntegral

/-! # C90: at zero momentum, the derivative functions integrate to the mass derivatives of the integrals

Specification: `IsIntegralDerivative` in `Verif/Spec/MassDerivative.lean`. -/

namespace Qcd
open Set MeasureTheory Filter Topology
open Spec (IsIntegralDerivative)

variable {T T1 T2 : Type} [Num T] [Num T1] [Num T2]

/-! ### Pointwise, both masses varied -/

theorem zm_d_i_m_m_i_same_mass_total {om : ℂ} {M beta : ℝ} (hr : om.re ≠ 0) (hb : 0 < beta) (hM : 0 < M) (hi : |om.im| < Real.sqrt M) :
    Spec.IsMassDerivative (fun q M' => thermal.zero_momentum.i_m_m_i_same_mass q om (Real.sqrt M') beta)
      (fun q => 2 * thermal.zero_momentum.d_i_m_m_i_same_mass q om (Real.sqrt M) beta) M := by
  have e1 : ∀ e : ℂ, om * om + e * (om * I * (2 : ℝ)) = R0 om (0 : ℝ) e 0 := fun e => by simp only [R0, I]; push_cast; ring
  have e2 : ∀ e : ℂ, om * om - e * (om * I * (2 : ℝ)) = R0 (-om) (0 : ℝ) e 0 := fun e => by simp only [R0, I]; push_cast; ring
  have hpi : (PI2 : ℂ) ≠ 0 := by rw [pi2_cast]; exact pow_ne_zero 2 (by exact_mod_cast Real.pi_ne_zero)
  refine (bracket_zm hr (n := 0) (by norm_num)).massDerivSame hb hM hi (1 / (2 * PI2)) ?_ ?_
  · intro q hq M' hM'
    simp only [thermal.zero_momentum.i_m_m_i_same_mass, toC_real, toC_complex, ofR_complex, eM_eq hM'.le, hB, e1, e2]
    push_cast
    field_simp
  · intro q hq
    simp only [thermal.zero_momentum.d_i_m_m_i_same_mass, zm_r_0_same_mass_eq, toC_real, toC_complex, ofR_complex, ofR_real, eM_eq hM.le, hB]
    push_cast
    generalize (R0 om 0 (eM q M) 0)⁻¹ = a1
    generalize (R0 (-om) 0 (eM q M) 0)⁻¹ = a3
    field_simp
    ring

theorem zm_d_i_m_m_l_i_same_mass_total {om : ℂ} {M beta : ℝ} (hr : om.re ≠ 0) (hb : 0 < beta) (hM : 0 < M) (hi : |om.im| < Real.sqrt M) :
    Spec.IsMassDerivative (fun q M' => thermal.zero_momentum.i_m_m_l_i_same_mass q om (Real.sqrt M') beta)
      (fun q => 2 * thermal.zero_momentum.d_i_m_m_l_i_same_mass q om (Real.sqrt M) beta) M := by
  have e1 : ∀ e : ℂ, om * om + e * (om * I * (2 : ℝ)) = R0 om (0 : ℝ) e 0 := fun e => by simp only [R0, I]; push_cast; ring
  have e2 : ∀ e : ℂ, om * om - e * (om * I * (2 : ℝ)) = R0 (-om) (0 : ℝ) e 0 := fun e => by simp only [R0, I]; push_cast; ring
  have hpi : (PI2 : ℂ) ≠ 0 := by rw [pi2_cast]; exact pow_ne_zero 2 (by exact_mod_cast Real.pi_ne_zero)
  refine (bracket_zm hr (n := 2) (by norm_num)).massDerivSame hb hM hi (1 / (6 * PI2)) ?_ ?_
  · intro q hq M' hM'
    simp only [thermal.zero_momentum.i_m_m_l_i_same_mass, toC_real, toC_complex, ofR_complex, ofR_real, eM_eq hM'.le, hB, e1, e2]
    push_cast
    field_simp
  · intro q hq
    simp only [thermal.zero_momentum.d_i_m_m_l_i_same_mass, zm_r_0_same_mass_eq, toC_real, toC_complex, ofR_complex, ofR_real, eM_eq hM.le, hB]
    push_cast
    generalize (R0 om 0 (eM q M) 0)⁻¹ = a1
    generalize (R0 (-om) 0 (eM q M) 0)⁻¹ = a3
    field_simp
    ring

/-! ### Integrated -/

/-- **C90**: `zero_momentum::d_i_m_m_i_same_mass` (both masses varied). -/
theorem C90_d_i_m_m_i_same_mass {om M beta : ℝ} (ho : om ≠ 0) (hM : 0 < M) (hb : 0 < beta) :
    IsIntegralDerivative (fun q M' => thermal.zero_momentum.i_m_m_i_same_mass q (ofR om : T1) √M' beta)
      (fun q => 2 * thermal.zero_momentum.d_i_m_m_i_same_mass q (ofR om : T1) √M beta) M := by
  have e1 : ∀ (q : ℝ) (m : ℝ), thermal.zero_momentum.i_m_m_i_same_mass q (ofR om : T1) m beta = thermal.zero_momentum.i_m_m_i_same_mass q (om : ℂ) m beta := fun q m => by
    rw [toC_thermal_zero_momentum_i_m_m_i_same_mass, toC_thermal_zero_momentum_i_m_m_i_same_mass q (om : ℂ), toC_ofR, toC_complex]
  have e2 : ∀ (q : ℝ) (m : ℝ), thermal.zero_momentum.d_i_m_m_i_same_mass q (ofR om : T1) m beta = thermal.zero_momentum.d_i_m_m_i_same_mass q (om : ℂ) m beta := fun q m => by
    rw [toC_thermal_zero_momentum_d_i_m_m_i_same_mass, toC_thermal_zero_momentum_d_i_m_m_i_same_mass q (om : ℂ), toC_ofR, toC_complex]
  have e3 : ∀ (q : ℝ) (m : ℝ), thermal.zero_momentum.i_m_m_i_same_mass q om m beta = thermal.zero_momentum.i_m_m_i_same_mass q (om : ℂ) m beta := fun q m => by
    rw [toC_thermal_zero_momentum_i_m_m_i_same_mass, toC_thermal_zero_momentum_i_m_m_i_same_mass q (om : ℂ), toC_real, toC_complex]
  have e4 : ∀ (q : ℝ) (m : ℝ), thermal.zero_momentum.d_i_m_m_i_same_mass q om m beta = thermal.zero_momentum.d_i_m_m_i_same_mass q (om : ℂ) m beta := fun q m => by
    rw [toC_thermal_zero_momentum_d_i_m_m_i_same_mass, toC_thermal_zero_momentum_d_i_m_m_i_same_mass q (om : ℂ), toC_real, toC_complex]
  simp only [e1, e2]
  refine integralDerivative_of hM hb (zm_d_i_m_m_i_same_mass_total (by simpa using ho) hb hM (by simpa using hM)) ?_ (fun M' hM' => ?_) ?_
  · refine (loop_same_bl (a := M / 2) (b := 2 * M) (by linarith) numBL_scalar (fun _ _ => continuous_const) (p := 0) ho hb).congr fun q hq z hz x hx => ?_
    have := C62_zero_momentum_i_m_m_i_same_mass (q := q) (om : ℂ) √x beta
    rw [this]; simp
  · simpa only [e3] using (dom_zm_i_m_m_i_same_mass hb ho (Real.sqrt_pos.2 hM').ne').integrable hb le_rfl
  · have := (dom_zm_d_i_m_m_i_same_mass hb ho (Real.sqrt_pos.2 hM).ne').integrable hb le_rfl
    simp only [e4] at this
    exact this.const_mul 2

/-- **C90**: `zero_momentum::d_i_m_0_i`. -/
theorem C90_d_i_m_0_i {om M beta : ℝ} (ho : om ≠ 0) (hM : 0 < M) (hb : 0 < beta) :
    IsIntegralDerivative (fun q M' => thermal.zero_momentum.i_m_0_i q (ofR om : T1) √M' beta)
      (fun q => thermal.zero_momentum.d_i_m_0_i q (ofR om : T1) √M beta) M := by
  have e1 : ∀ (q : ℝ) (m : ℝ), thermal.zero_momentum.i_m_0_i q (ofR om : T1) m beta = thermal.zero_momentum.i_m_0_i q (om : ℂ) m beta := fun q m => by
    rw [toC_thermal_zero_momentum_i_m_0_i, toC_thermal_zero_momentum_i_m_0_i q (om : ℂ), toC_ofR, toC_complex]
  have e2 : ∀ (q : ℝ) (m : ℝ), thermal.zero_momentum.d_i_m_0_i q (ofR om : T1) m beta = thermal.zero_momentum.d_i_m_0_i q (om : ℂ) m beta := fun q m => by
    rw [toC_thermal_zero_momentum_d_i_m_0_i, toC_thermal_zero_momentum_d_i_m_0_i q (om : ℂ), toC_ofR, toC_complex]
  have e3 : ∀ (q : ℝ) (m : ℝ), thermal.zero_momentum.i_m_0_i q om m beta = thermal.zero_momentum.i_m_0_i q (om : ℂ) m beta := fun q m => by
    rw [toC_thermal_zero_momentum_i_m_0_i, toC_thermal_zero_momentum_i_m_0_i q (om : ℂ), toC_real, toC_complex]
  have e4 : ∀ (q : ℝ) (m : ℝ), thermal.zero_momentum.d_i_m_0_i q om m beta = thermal.zero_momentum.d_i_m_0_i q (om : ℂ) m beta := fun q m => by
    rw [toC_thermal_zero_momentum_d_i_m_0_i, toC_thermal_zero_momentum_d_i_m_0_i q (om : ℂ), toC_real, toC_complex]
  simp only [e1, e2]
  have hd := (C39_zero_momentum_d_i_m_m_i (om := om) (m2 := 0) (by simpa using ho) hb hM (by simpa using hM) (by simp)).congr
    (fun q hq M' => C35_thermal_zero_momentum_second_mass_zero.1 q (om : ℂ) (Real.sqrt M') beta hq)
    fun q hq => C35_thermal_zero_momentum_second_mass_zero.2.2.2.1 q (om : ℂ) (Real.sqrt M) beta hq
  refine integralDerivative_of hM hb hd ?_ (fun M' hM' => ?_) ?_
  · refine (loop_zero_bl (a := M / 2) (b := 2 * M) (by linarith) numBL_scalar (fun _ _ => continuous_const) (p := 0) ho hb).congr fun q hq z hz x hx => ?_
    have := C62_zero_momentum_i_m_0_i (q := q) hq (om : ℂ) √x beta
    rw [this]; simp
  · simpa only [e3] using (dom_zm_i_m_0_i hb ho (Real.sqrt_pos.2 hM').ne').integrable hb le_rfl
  · have := (dom_zm_d_i_m_0_i hb ho (Real.sqrt_pos.2 hM).ne').integrable hb le_rfl
    simp only [e4] at this
    exact this

/-- **C90**: `zero_momentum::d_i_m_m_l_i_same_mass` (both masses varied). -/
theorem C90_d_i_m_m_l_i_same_mass {om M beta : ℝ} (ho : om ≠ 0) (hM : 0 < M) (hb : 0 < beta) :
    IsIntegralDerivative (fun q M' => thermal.zero_momentum.i_m_m_l_i_same_mass q (ofR om : T1) √M' beta)
      (fun q => 2 * thermal.zero_momentum.d_i_m_m_l_i_same_mass q (ofR om : T1) √M beta) M := by
  have e1 : ∀ (q : ℝ) (m : ℝ), thermal.zero_momentum.i_m_m_l_i_same_mass q (ofR om : T1) m beta = thermal.zero_momentum.i_m_m_l_i_same_mass q (om : ℂ) m beta := fun q m => by
    rw [toC_thermal_zero_momentum_i_m_m_l_i_same_mass, toC_thermal_zero_momentum_i_m_m_l_i_same_mass q (om : ℂ), toC_ofR, toC_complex]
  have e2 : ∀ (q : ℝ) (m : ℝ), thermal.zero_momentum.d_i_m_m_l_i_same_mass q (ofR om : T1) m beta = thermal.zero_momentum.d_i_m_m_l_i_same_mass q (om : ℂ) m beta := fun q m => by
    rw [toC_thermal_zero_momentum_d_i_m_m_l_i_same_mass, toC_thermal_zero_momentum_d_i_m_m_l_i_same_mass q (om : ℂ), toC_ofR, toC_complex]
  have e3 : ∀ (q : ℝ) (m : ℝ), thermal.zero_momentum.i_m_m_l_i_same_mass q om m beta = thermal.zero_momentum.i_m_m_l_i_same_mass q (om : ℂ) m beta := fun q m => by
    rw [toC_thermal_zero_momentum_i_m_m_l_i_same_mass, toC_thermal_zero_momentum_i_m_m_l_i_same_mass q (om : ℂ), toC_real, toC_complex]
  have e4 : ∀ (q : ℝ) (m : ℝ), thermal.zero_momentum.d_i_m_m_l_i_same_mass q om m beta = thermal.zero_momentum.d_i_m_m_l_i_same_mass q (om : ℂ) m beta := fun q m => by
    rw [toC_thermal_zero_momentum_d_i_m_m_l_i_same_mass, toC_thermal_zero_momentum_d_i_m_m_l_i_same_mass q (om : ℂ), toC_real, toC_complex]
  simp only [e1, e2]
  refine integralDerivative_of hM hb (zm_d_i_m_m_l_i_same_mass_total (by simpa using ho) hb hM (by simpa using hM)) ?_ (fun M' hM' => ?_) ?_
  · refine (loop_same_bl (a := M / 2) (b := 2 * M) (by linarith) numBL_transverse cont_transverse (p := 0) ho hb).congr fun q hq z hz x hx => ?_
    have := C62_zero_momentum_i_m_m_t_i_same_mass (q := q) (om : ℂ) √x beta
    rw [thermal.zero_momentum.i_m_m_t_i_same_mass] at this
    rw [this]; simp
  · simpa only [e3] using (dom_zm_i_m_m_l_i_same_mass hb ho (Real.sqrt_pos.2 hM').ne').integrable hb le_rfl
  · have := (dom_zm_d_i_m_m_l_i_same_mass hb ho (Real.sqrt_pos.2 hM).ne').integrable hb le_rfl
    simp only [e4] at this
    exact this.const_mul 2

/-- **C90**: `zero_momentum::d_i_m_0_l_i`. -/
theorem C90_d_i_m_0_l_i {om M beta : ℝ} (ho : om ≠ 0) (hM : 0 < M) (hb : 0 < beta) :
    IsIntegralDerivative (fun q M' => thermal.zero_momentum.i_m_0_l_i q (ofR om : T1) √M' beta)
      (fun q => thermal.zero_momentum.d_i_m_0_l_i q (ofR om : T1) √M beta) M := by
  have e1 : ∀ (q : ℝ) (m : ℝ), thermal.zero_momentum.i_m_0_l_i q (ofR om : T1) m beta = thermal.zero_momentum.i_m_0_l_i q (om : ℂ) m beta := fun q m => by
    rw [toC_thermal_zero_momentum_i_m_0_l_i, toC_thermal_zero_momentum_i_m_0_l_i q (om : ℂ), toC_ofR, toC_complex]
  have e2 : ∀ (q : ℝ) (m : ℝ), thermal.zero_momentum.d_i_m_0_l_i q (ofR om : T1) m beta = thermal.zero_momentum.d_i_m_0_l_i q (om : ℂ) m beta := fun q m => by
    rw [toC_thermal_zero_momentum_d_i_m_0_l_i, toC_thermal_zero_momentum_d_i_m_0_l_i q (om : ℂ), toC_ofR, toC_complex]
  have e3 : ∀ (q : ℝ) (m : ℝ), thermal.zero_momentum.i_m_0_l_i q om m beta = thermal.zero_momentum.i_m_0_l_i q (om : ℂ) m beta := fun q m => by
    rw [toC_thermal_zero_momentum_i_m_0_l_i, toC_thermal_zero_momentum_i_m_0_l_i q (om : ℂ), toC_real, toC_complex]
  have e4 : ∀ (q : ℝ) (m : ℝ), thermal.zero_momentum.d_i_m_0_l_i q om m beta = thermal.zero_momentum.d_i_m_0_l_i q (om : ℂ) m beta := fun q m => by
    rw [toC_thermal_zero_momentum_d_i_m_0_l_i, toC_thermal_zero_momentum_d_i_m_0_l_i q (om : ℂ), toC_real, toC_complex]
  simp only [e1, e2]
  have hd := (C39_zero_momentum_d_i_m_m_l_i (om := om) (m2 := 0) (by simpa using ho) hb hM (by simpa using hM) (by simp)).congr
    (fun q hq M' => C35_thermal_zero_momentum_second_mass_zero.2.1 q (om : ℂ) (Real.sqrt M') beta hq)
    fun q hq => C35_thermal_zero_momentum_second_mass_zero.2.2.2.2.1 q (om : ℂ) (Real.sqrt M) beta hq
  refine integralDerivative_of hM hb hd ?_ (fun M' hM' => ?_) ?_
  · refine (loop_zero_bl (a := M / 2) (b := 2 * M) (by linarith) numBL_transverse cont_transverse (p := 0) ho hb).congr fun q hq z hz x hx => ?_
    have := C62_zero_momentum_i_m_0_t_i (q := q) hq (om : ℂ) √x beta
    rw [thermal.zero_momentum.i_m_0_t_i] at this
    rw [this]; simp
  · simpa only [e3] using (dom_zm_i_m_0_l_i hb ho (Real.sqrt_pos.2 hM').ne').integrable hb le_rfl
  · have := (dom_zm_d_i_m_0_l_i hb ho (Real.sqrt_pos.2 hM).ne').integrable hb le_rfl
    simp only [e4] at this
    exact this

/-- **C90**: the transverse functions. -/
theorem C90_d_i_m_m_t_i_same_mass {om M beta : ℝ} (ho : om ≠ 0) (hM : 0 < M) (hb : 0 < beta) :
    IsIntegralDerivative (fun q M' => thermal.zero_momentum.i_m_m_t_i_same_mass q (ofR om : T1) √M' beta)
      (fun q => 2 * thermal.zero_momentum.d_i_m_m_t_i_same_mass q (ofR om : T1) √M beta) M :=
  C90_d_i_m_m_l_i_same_mass ho hM hb

/-- **C90**: the transverse functions. -/
theorem C90_d_i_m_0_t_i {om M beta : ℝ} (ho : om ≠ 0) (hM : 0 < M) (hb : 0 < beta) :
    IsIntegralDerivative (fun q M' => thermal.zero_momentum.i_m_0_t_i q (ofR om : T1) √M' beta)
      (fun q => thermal.zero_momentum.d_i_m_0_t_i q (ofR om : T1) √M beta) M :=
  C90_d_i_m_0_l_i ho hM hb

/-- The hypotheses can be met. -/
example : IsIntegralDerivative (fun q M' => thermal.zero_momentum.i_m_0_i q (ofR 1 : ℝ) √M' 2)
    (fun q => thermal.zero_momentum.d_i_m_0_i q (ofR 1 : ℝ) √3 2) 3 :=
  C90_d_i_m_0_i one_ne_zero (by norm_num) (by norm_num)

end Qcd
