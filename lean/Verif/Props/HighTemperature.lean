import Verif.Lemmas.Htl
import Verif.Spec.HardThermalLoop
import Verif.Props.LowTemperature

/-! # C75: hard thermal loops

At high temperature the quark polarizations divided by `T²` tend to the hard-thermal-loop expressions, `T² + 3μ²/π²` replacing `T²`
when the chemical potential grows with the temperature. `-2 nc` relates the QCD normalisation to that of QED
(examples/qed_htl_limit.rs l.25-35, where `nc` is 3). -/

set_option linter.unusedSimpArgs false

namespace Qcd
open MeasureTheory Filter Topology Set
open consts (Consts Integral)

variable {om p : ℝ} (mq : ℝ)

/-- Velocity of a quark of momentum `q`. -/
noncomputable def htlv (mq q : ℝ) : ℝ := q / energy q mq
noncomputable def htlw (om p mq q : ℝ) : ℝ := (om ^ 2 + p ^ 2) / (2 * energy q mq)

theorem htlv_tendsto : Tendsto (htlv mq) atTop (𝓝 1) := by
  have h1 : Tendsto (fun q : ℝ => Real.sqrt (mq * mq * q⁻¹ ^ 2 + 1)) atTop (𝓝 1) := by
    have := ((tendsto_inv_atTop_zero (𝕜 := ℝ)).pow 2).const_mul (mq * mq) |>.add_const 1
    simpa [Function.comp_def] using (Real.continuous_sqrt.tendsto _).comp this
  have h2 := h1.inv₀ one_ne_zero
  rw [inv_one] at h2
  refine h2.congr' ?_
  filter_upwards [eventually_gt_atTop 0] with q hq
  rw [htlv, energy_real, show mq * mq + q * q = (mq * mq * q⁻¹ ^ 2 + 1) * q ^ 2 by field_simp,
    Real.sqrt_mul (by have := mul_self_nonneg mq; positivity), Real.sqrt_sq hq.le, div_mul_cancel_right₀ hq.ne']

theorem energy_atTop : Tendsto (fun q => energy q mq) atTop atTop :=
  tendsto_atTop_mono' _ ((eventually_ge_atTop 0).mono fun _ hq => le_energy_dom hq) tendsto_id

theorem htlw_tendsto : Tendsto (htlw om p mq) atTop (𝓝 0) := by
  unfold htlw
  exact tendsto_const_nhds.div_atTop ((energy_atTop mq).const_mul_atTop two_pos)

theorem htlv_mem {q : ℝ} (hq : 0 < q) : 0 ≤ htlv mq q ∧ htlv mq q ≤ 1 := by
  have := le_energy_dom (m := mq) hq.le
  exact ⟨div_nonneg hq.le (hq.le.trans this), (div_le_one (hq.trans_le this)).2 this⟩

/-- Common shape of the two projections. -/
theorem htl_shape_bound {q : ℝ} (hq : 0 < q) {A B : ℂ} {a b : ℝ} (hA : ‖A‖ ≤ a) (hB : ‖B‖ ≤ b) :
    ‖((htlv mq q * q : ℝ) : ℂ) * A + ((htlv mq q ^ 2 : ℝ) : ℂ) * B‖ ≤ (a + b) * (1 + q) := by
  obtain ⟨h0, h1⟩ := htlv_mem mq hq
  have ha := (norm_nonneg _).trans hA
  have hb := (norm_nonneg _).trans hB
  refine (norm_add_le _ _).trans ?_
  rw [norm_mul, norm_mul, Complex.norm_real, Complex.norm_real, Real.norm_of_nonneg (by positivity), Real.norm_of_nonneg (by positivity)]
  have h2 : htlv mq q * q ≤ q := by nlinarith
  have h3 : htlv mq q ^ 2 ≤ 1 := pow_le_one₀ h0 h1
  calc _ ≤ q * a + 1 * b := by gcongr
    _ ≤ _ := by nlinarith

theorem htl_shape_limit {A B : ℝ → ℂ} {a b : ℂ} (hA : Tendsto A atTop (𝓝 a)) (hB : Tendsto B atTop (𝓝 b)) :
    Tendsto (fun q : ℝ => (((htlv mq q * q : ℝ) : ℂ) * A q + ((htlv mq q ^ 2 : ℝ) : ℂ) * B q) / q) atTop (𝓝 a) := by
  have hv := (Complex.continuous_ofReal.tendsto _).comp (htlv_tendsto mq)
  have hi := (Complex.continuous_ofReal.tendsto _).comp (tendsto_inv_atTop_zero (𝕜 := ℝ))
  have := (hv.mul hA).add (((hv.pow 2).mul hB).mul hi)
  simp only [Function.comp, Complex.ofReal_one, one_mul, one_pow, Complex.ofReal_zero, mul_zero, add_zero] at this
  refine this.congr' ?_
  filter_upwards [eventually_gt_atTop 0] with q hq
  have : (q : ℂ) ≠ 0 := Complex.ofReal_ne_zero.2 hq.ne'
  push_cast
  field_simp

/-- The sum and the difference of the logarithms at opposite frequencies. -/
theorem TL_htl_sum (ho : om ≠ 0) (hp : p ≠ 0) {q : ℝ} (hq : 0 < q) :
    TL q (om : ℂ) p ((energy q mq : ℝ) : ℂ) ((0 : ℝ) : ℂ) = p * htlv mq q * htlK om p (htlv mq q) (htlw om p mq q) ∧
    TL q ((-om : ℝ) : ℂ) p ((energy q mq : ℝ) : ℂ) ((0 : ℝ) : ℂ) = -(p * htlv mq q * htlK om p (htlv mq q) (-htlw om p mq q)) ∧
    ((energy q mq : ℝ) : ℂ) * (htlK om p (htlv mq q) (htlw om p mq q) - htlK om p (htlv mq q) (-htlw om p mq q)) =
      -(om ^ 2 + p ^ 2) * htlJ om p (htlv mq q) (htlw om p mq q) := by
  have he := hq.trans_le (le_energy_dom (m := mq) hq.le)
  refine ⟨?_, ?_, ?_⟩
  · rw [TL_htl ho hp hq he, htlv, htlw]; push_cast; ring
  · rw [TL_htl (neg_ne_zero.2 ho) hp hq he, htlK_neg, neg_sq, htlv, htlw]; push_cast; ring
  · rw [htlK_sub ho, htlw]
    have : ((energy q mq : ℝ) : ℂ) ≠ 0 := Complex.ofReal_ne_zero.2 he.ne'
    push_cast
    field_simp

/-- The part of the integrand beside the distribution: measurable, of linear growth. -/
theorem htl_kernel_l (ho : om ≠ 0) (hp : p ≠ 0) (k : Consts ℝ) (hk : k.nc ≠ 0) : ∃ H : ℝ → ℂ, Measurable H ∧ (∃ C : ℝ, ∀ x, 0 < x → ‖H x‖ ≤ C * (1 + x)) ∧
    Tendsto (fun x : ℝ => H x / x) atTop (𝓝 (-(2 * (k.nc : ℂ))⁻¹ * (6 / Real.pi ^ 2) * Spec.htl_l om p 1)) ∧
    (∀ b mu q : ℝ, gluon.thermal.polarization_quark_l_thermal_part_landau_i k q om p mq b mu =
      ((fermi_distribution_double (energy q mq) b mu : ℝ) : ℂ) * H q) ∧
    (∀ mu q : ℝ, gluon.thermal.polarization_quark_l_thermal_part_zero_temp_landau_i k q om p mq mu =
      ((fermi_distribution_double_zero_temp (energy q mq) mu : ℝ) : ℂ) * H q) := by
  have hp' : (p : ℂ) ≠ 0 := Complex.ofReal_ne_zero.2 hp
  let H : ℝ → ℂ := fun q => -(((p : ℂ) * p * k.nc * 2 * PI2)⁻¹ * (om * om + p * p)) *
        (q * (q * ((energy q mq : ℝ) : ℂ)⁻¹) - ((p : ℂ) * 8)⁻¹ * (q * (q : ℂ)⁻¹) * (q * ((energy q mq : ℝ) : ℂ)⁻¹) *
          ((om * om + p * p - ((energy q mq : ℝ) : ℂ) * ((energy q mq : ℝ) : ℂ) * 4 + (om * 4 * Complex.I) * ((energy q mq : ℝ) : ℂ)) *
              TL q (om : ℂ) p ((energy q mq : ℝ) : ℂ) ((0 : ℝ) : ℂ)
            + (om * om + p * p - ((energy q mq : ℝ) : ℂ) * ((energy q mq : ℝ) : ℂ) * 4 - (om * 4 * Complex.I) * ((energy q mq : ℝ) : ℂ)) *
              TL q ((-om : ℝ) : ℂ) p ((energy q mq : ℝ) : ℂ) ((0 : ℝ) : ℂ)))
  have e : ∀ b mu q : ℝ, gluon.thermal.polarization_quark_l_thermal_part_landau_i k q om p mq b mu =
      ((fermi_distribution_double (energy q mq) b mu : ℝ) : ℂ) * H q := by
    intro b mu q
    simp only [gluon.thermal.polarization_quark_l_thermal_part_landau_i, tlog_same_mass_eq, toC_real, toC_complex, ofR_real, ofR_complex, H]
    push_cast
    ring
  have e' : ∀ mu q : ℝ, gluon.thermal.polarization_quark_l_thermal_part_zero_temp_landau_i k q om p mq mu =
      ((fermi_distribution_double_zero_temp (energy q mq) mu : ℝ) : ℂ) * H q := by
    intro mu q
    simp only [gluon.thermal.polarization_quark_l_thermal_part_zero_temp_landau_i, tlog_same_mass_eq, toC_real, toC_complex, ofR_real, ofR_complex, H]
    push_cast
    ring
  have hm : Measurable H := by
    have h1 := energyC_meas mq
    have h2 := TL_meas om p (energy_meas mq) 0
    have h3 := TL_meas (-om) p (energy_meas mq) 0
    simp only [H]
    fun_prop
  let A : ℝ → ℂ := fun q => 1 - (om ^ 2 + p ^ 2) / 2 * htlJ om p (htlv mq q) (htlw om p mq q)
    - Complex.I * om / 2 * (htlK om p (htlv mq q) (htlw om p mq q) + htlK om p (htlv mq q) (-htlw om p mq q))
  let B : ℝ → ℂ := fun q => -(om ^ 2 + p ^ 2) / 8 * (htlK om p (htlv mq q) (htlw om p mq q) - htlK om p (htlv mq q) (-htlw om p mq q))
  let c0 : ℂ := -(((p : ℂ) * p * k.nc * 2 * PI2)⁻¹ * (om * om + p * p))
  have hH : ∀ q, 0 < q → H q = c0 * (((htlv mq q * q : ℝ) : ℂ) * A q + ((htlv mq q ^ 2 : ℝ) : ℂ) * B q) := by
    intro q hq
    obtain ⟨h1, h2, h3⟩ := TL_htl_sum (om := om) (p := p) mq ho hp hq
    have he := hq.trans_le (le_energy_dom (m := mq) hq.le)
    have he' : ((energy q mq : ℝ) : ℂ) ≠ 0 := Complex.ofReal_ne_zero.2 he.ne'
    have hq' : (q : ℂ) ≠ 0 := Complex.ofReal_ne_zero.2 hq.ne'
    simp only [H, A, B, c0]
    rw [h1, h2]
    have hv : ((htlv mq q : ℝ) : ℂ) * ((energy q mq : ℝ) : ℂ) = q := by rw [htlv]; push_cast; field_simp
    generalize htlK om p (htlv mq q) (htlw om p mq q) = K1 at *
    generalize htlK om p (htlv mq q) (-htlw om p mq q) = K2 at *
    generalize htlJ om p (htlv mq q) (htlw om p mq q) = J at *
    push_cast
    rw [mul_inv_cancel₀ hq']
    rw [← hv]
    generalize ((htlv mq q : ℝ) : ℂ) = V at *
    generalize ((energy q mq : ℝ) : ℂ) = E at *
    congr 1
    field_simp
    linear_combination (8 * V ^ 2 * E) * h3
  have hK : ∀ w : ℝ → ℝ, Tendsto w atTop (𝓝 0) → Tendsto (fun q => htlK om p (htlv mq q) (w q)) atTop (𝓝 (htlK om p 1 0)) :=
    fun w hw => htlK_tendsto ho (htlv_tendsto mq) hw
  have hw := htlw_tendsto (om := om) (p := p) mq
  have hw' : Tendsto (fun q => -htlw om p mq q) atTop (𝓝 0) := by simpa using hw.neg
  have hJ := htlJ_tendsto (p := p) ho (htlv_tendsto mq) hw
  have hA : Tendsto A atTop (𝓝 (1 - (om ^ 2 + p ^ 2) / 2 * htlJ om p 1 0 - Complex.I * om / 2 * (htlK om p 1 0 + htlK om p 1 0))) :=
    (tendsto_const_nhds.sub (hJ.const_mul _)).sub (((hK _ hw).add (hK _ hw')).const_mul _)
  have hB : Tendsto B atTop (𝓝 (-(om ^ 2 + p ^ 2) / 8 * (htlK om p 1 0 - htlK om p 1 0))) :=
    (((hK _ hw).sub (hK _ hw')).const_mul _)
  have hlim := (htl_shape_limit mq hA hB).const_mul c0
  refine ⟨H, hm, ⟨‖c0‖ * ((1 + ‖((om ^ 2 + p ^ 2) / 2 : ℂ)‖ * (2 * (|om|⁻¹ * |om|⁻¹)) + ‖(Complex.I * om / 2 : ℂ)‖ * (2 * |om|⁻¹ + 2 * |om|⁻¹))
      + ‖(-(om ^ 2 + p ^ 2) / 8 : ℂ)‖ * (2 * |om|⁻¹ + 2 * |om|⁻¹)), ?_⟩, ?_, e, e'⟩
  · intro x hx
    rw [hH x hx, norm_mul, mul_assoc]
    gcongr
    refine htl_shape_bound mq hx ?_ ?_
    · refine (norm_sub_le _ _).trans (add_le_add ((norm_sub_le _ _).trans (add_le_add (by simp) ?_)) ?_)
      · rw [norm_mul]; gcongr; exact htlJ_norm ho _ _ _
      · rw [norm_mul]; gcongr; exact (norm_add_le _ _).trans (add_le_add (htlK_norm ho _ _ _) (htlK_norm ho _ _ _))
    · simp only [B]
      rw [norm_mul]; gcongr; exact (norm_sub_le _ _).trans (add_le_add (htlK_norm ho _ _ _) (htlK_norm ho _ _ _))
  · have hc := hlim.congr' (f₂ := fun q : ℝ => H q / q) (by
      filter_upwards [eventually_gt_atTop 0] with q hq
      rw [hH q hq]
      ring)
    convert hc using 2
    have h1 := htlK_limit ho hp
    have h2 := htlJ_limit ho hp
    rw [Spec.htl_l, ← h1]
    simp only [c0, PI2]
    have hnc : (k.nc : ℂ) ≠ 0 := Nat.cast_ne_zero.2 hk
    have hpi : (Real.pi : ℂ) ≠ 0 := Complex.ofReal_ne_zero.2 Real.pi_ne_zero
    push_cast
    rw [show (1 : ℂ) - (om ^ 2 + p ^ 2) / 2 * htlJ om p 1 0 - Complex.I * om / 2 * (htlK om p 1 0 + htlK om p 1 0) =
      2 * (1 - Complex.I * om / (2 * p) * (p * htlK om p 1 0)) by
        field_simp
        linear_combination -h2]
    rw [mul_pow, Complex.I_sq]
    field_simp
    ring

theorem htl_quark_l (ho : om ≠ 0) (hp : p ≠ 0) (k : Consts ℝ) (hk : k.nc ≠ 0) {mu : ℝ → ℝ} {v : ℝ}
    (hmu : Tendsto (fun b => b * mu b) (𝓝[>] 0) (𝓝 v)) :
    Tendsto (fun b : ℝ => (b : ℂ) ^ 2 * ∫ q in Ioi (0 : ℝ), gluon.thermal.polarization_quark_l_thermal_part_landau_i k q om p mq b (mu b))
      (𝓝[>] 0) (𝓝 (-(2 * (k.nc : ℂ))⁻¹ * Spec.htl_l om p (1 + 3 * v ^ 2 / Real.pi ^ 2))) := by
  obtain ⟨H, hm, ⟨C, hC⟩, hlim, e, -⟩ := htl_kernel_l mq ho hp k hk
  simp only [e]
  convert htl_core hm hC hlim mq hmu using 2
  have hnc : (k.nc : ℂ) ≠ 0 := Nat.cast_ne_zero.2 hk
  have hpi : (Real.pi : ℂ) ≠ 0 := Complex.ofReal_ne_zero.2 Real.pi_ne_zero
  simp only [Spec.htl_l]
  push_cast
  field_simp
  ring

/-- The part of the integrand beside the distribution: measurable, of linear growth. -/
theorem htl_kernel_t (ho : om ≠ 0) (hp : p ≠ 0) (k : Consts ℝ) (hk : k.nc ≠ 0) : ∃ H : ℝ → ℂ, Measurable H ∧ (∃ C : ℝ, ∀ x, 0 < x → ‖H x‖ ≤ C * (1 + x)) ∧
    Tendsto (fun x : ℝ => H x / x) atTop (𝓝 (-(2 * (k.nc : ℂ))⁻¹ * (6 / Real.pi ^ 2) * Spec.htl_t om p 1)) ∧
    (∀ b mu q : ℝ, gluon.thermal.polarization_quark_t_thermal_part_landau_i k q om p mq b mu =
      ((fermi_distribution_double (energy q mq) b mu : ℝ) : ℂ) * H q) ∧
    (∀ mu q : ℝ, gluon.thermal.polarization_quark_t_thermal_part_zero_temp_landau_i k q om p mq mu =
      ((fermi_distribution_double_zero_temp (energy q mq) mu : ℝ) : ℂ) * H q) := by
  have hp' : (p : ℂ) ≠ 0 := Complex.ofReal_ne_zero.2 hp
  let H : ℝ → ℂ := fun q => -((p : ℂ) * p * k.nc * 4 * PI2)⁻¹ *
        ((-(om * om) + p * p : ℂ) * (q * (q * ((energy q mq : ℝ) : ℂ)⁻¹)) - ((p : ℂ) * 8)⁻¹ * (q * (q : ℂ)⁻¹) * (q * ((energy q mq : ℝ) : ℂ)⁻¹) *
          ((((-(om * om) + p * p) * (om * om + p * p) + 4 * (q * q) * (p * p) + om * om * 4 * ((energy q mq : ℝ) : ℂ) * ((energy q mq : ℝ) : ℂ))
              - (om * (om * om + p * p) * 4 * Complex.I) * ((energy q mq : ℝ) : ℂ)) *
              TL q (om : ℂ) p ((energy q mq : ℝ) : ℂ) ((0 : ℝ) : ℂ)
            + (((-(om * om) + p * p) * (om * om + p * p) + 4 * (q * q) * (p * p) + om * om * 4 * ((energy q mq : ℝ) : ℂ) * ((energy q mq : ℝ) : ℂ))
              + (om * (om * om + p * p) * 4 * Complex.I) * ((energy q mq : ℝ) : ℂ)) *
              TL q ((-om : ℝ) : ℂ) p ((energy q mq : ℝ) : ℂ) ((0 : ℝ) : ℂ)))
  have e : ∀ b mu q : ℝ, gluon.thermal.polarization_quark_t_thermal_part_landau_i k q om p mq b mu =
      ((fermi_distribution_double (energy q mq) b mu : ℝ) : ℂ) * H q := by
    intro b mu q
    simp only [gluon.thermal.polarization_quark_t_thermal_part_landau_i, tlog_same_mass_eq, toC_real, toC_complex, ofR_real, ofR_complex, H]
    push_cast
    ring
  have e' : ∀ mu q : ℝ, gluon.thermal.polarization_quark_t_thermal_part_zero_temp_landau_i k q om p mq mu =
      ((fermi_distribution_double_zero_temp (energy q mq) mu : ℝ) : ℂ) * H q := by
    intro mu q
    simp only [gluon.thermal.polarization_quark_t_thermal_part_zero_temp_landau_i, tlog_same_mass_eq, toC_real, toC_complex, ofR_real, ofR_complex, H]
    push_cast
    ring
  have hm : Measurable H := by
    have h1 := energyC_meas mq
    have h2 := TL_meas om p (energy_meas mq) 0
    have h3 := TL_meas (-om) p (energy_meas mq) 0
    simp only [H]
    fun_prop
  let A : ℝ → ℂ := fun q => (-(om * om) + p * p) + (om ^ 2 + p ^ 2) / 2 * (((htlv mq q : ℝ) : ℂ) ^ 2 * p ^ 2 + om ^ 2) * htlJ om p (htlv mq q) (htlw om p mq q)
    + Complex.I * om * (om ^ 2 + p ^ 2) / 2 * (htlK om p (htlv mq q) (htlw om p mq q) + htlK om p (htlv mq q) (-htlw om p mq q))
  let B : ℝ → ℂ := fun q => -((-(om * om) + p * p) * (om ^ 2 + p ^ 2)) / 8 * (htlK om p (htlv mq q) (htlw om p mq q) - htlK om p (htlv mq q) (-htlw om p mq q))
  let c0 : ℂ := -((p : ℂ) * p * k.nc * 4 * PI2)⁻¹
  have hH : ∀ q, 0 < q → H q = c0 * (((htlv mq q * q : ℝ) : ℂ) * A q + ((htlv mq q ^ 2 : ℝ) : ℂ) * B q) := by
    intro q hq
    obtain ⟨h1, h2, h3⟩ := TL_htl_sum (om := om) (p := p) mq ho hp hq
    have he := hq.trans_le (le_energy_dom (m := mq) hq.le)
    have he' : ((energy q mq : ℝ) : ℂ) ≠ 0 := Complex.ofReal_ne_zero.2 he.ne'
    have hq' : (q : ℂ) ≠ 0 := Complex.ofReal_ne_zero.2 hq.ne'
    simp only [H, A, B, c0]
    rw [h1, h2]
    have hv : ((htlv mq q : ℝ) : ℂ) * ((energy q mq : ℝ) : ℂ) = q := by rw [htlv]; push_cast; field_simp
    generalize htlK om p (htlv mq q) (htlw om p mq q) = K1 at *
    generalize htlK om p (htlv mq q) (-htlw om p mq q) = K2 at *
    generalize htlJ om p (htlv mq q) (htlw om p mq q) = J at *
    push_cast
    rw [mul_inv_cancel₀ hq']
    rw [← hv]
    generalize ((htlv mq q : ℝ) : ℂ) = V at *
    generalize ((energy q mq : ℝ) : ℂ) = E at *
    congr 1
    field_simp
    linear_combination (-8 * V ^ 2 * E * (V ^ 2 * p ^ 2 + om ^ 2)) * h3
  have hK : ∀ w : ℝ → ℝ, Tendsto w atTop (𝓝 0) → Tendsto (fun q => htlK om p (htlv mq q) (w q)) atTop (𝓝 (htlK om p 1 0)) :=
    fun w hw => htlK_tendsto ho (htlv_tendsto mq) hw
  have hw := htlw_tendsto (om := om) (p := p) mq
  have hw' : Tendsto (fun q => -htlw om p mq q) atTop (𝓝 0) := by simpa using hw.neg
  have hJ := htlJ_tendsto (p := p) ho (htlv_tendsto mq) hw
  have hv := (Complex.continuous_ofReal.tendsto _).comp (htlv_tendsto mq)
  have hA : Tendsto A atTop (𝓝 ((-(om * om) + p * p) + (om ^ 2 + p ^ 2) / 2 * (((1 : ℝ) : ℂ) ^ 2 * p ^ 2 + om ^ 2) * htlJ om p 1 0
      + Complex.I * om * (om ^ 2 + p ^ 2) / 2 * (htlK om p 1 0 + htlK om p 1 0))) :=
    (tendsto_const_nhds.add (((((hv.pow 2).mul_const _).add_const _).const_mul _).mul hJ)).add (((hK _ hw).add (hK _ hw')).const_mul _)
  have hB : Tendsto B atTop (𝓝 (-((-(om * om) + p * p) * (om ^ 2 + p ^ 2)) / 8 * (htlK om p 1 0 - htlK om p 1 0))) :=
    (((hK _ hw).sub (hK _ hw')).const_mul _)
  have hlim := (htl_shape_limit mq hA hB).const_mul c0
  refine ⟨H, hm, ⟨‖c0‖ * ((‖(-(om * om) + p * p : ℂ)‖ + ‖((om ^ 2 + p ^ 2) / 2 : ℂ)‖ * (|p| ^ 2 + |om| ^ 2) * (2 * (|om|⁻¹ * |om|⁻¹))
      + ‖(Complex.I * om * (om ^ 2 + p ^ 2) / 2 : ℂ)‖ * (2 * |om|⁻¹ + 2 * |om|⁻¹))
      + ‖(-((-(om * om) + p * p) * (om ^ 2 + p ^ 2)) / 8 : ℂ)‖ * (2 * |om|⁻¹ + 2 * |om|⁻¹)), ?_⟩, ?_, e, e'⟩
  · intro x hx
    rw [hH x hx, norm_mul, mul_assoc]
    gcongr
    refine htl_shape_bound mq hx ?_ ?_
    · refine (norm_add_le _ _).trans (add_le_add ((norm_add_le _ _).trans (add_le_add le_rfl ?_)) ?_)
      · obtain ⟨g0, g1⟩ := htlv_mem mq hx
        have g2 : ‖((htlv mq x : ℝ) : ℂ) ^ 2 * p ^ 2 + om ^ 2‖ ≤ |p| ^ 2 + |om| ^ 2 := by
          refine (norm_add_le _ _).trans ?_
          rw [norm_mul, norm_pow, norm_pow, norm_pow, Complex.norm_real, Complex.norm_real, Complex.norm_real, Real.norm_of_nonneg g0]
          have := pow_le_one₀ (n := 2) g0 g1
          simp only [Real.norm_eq_abs]
          nlinarith [sq_nonneg |p|]
        rw [norm_mul, norm_mul]
        gcongr
        exact htlJ_norm ho _ _ _
      · rw [norm_mul]; gcongr; exact (norm_add_le _ _).trans (add_le_add (htlK_norm ho _ _ _) (htlK_norm ho _ _ _))
    · simp only [B]
      rw [norm_mul]; gcongr; exact (norm_sub_le _ _).trans (add_le_add (htlK_norm ho _ _ _) (htlK_norm ho _ _ _))
  · have hc := hlim.congr' (f₂ := fun q : ℝ => H q / q) (by
      filter_upwards [eventually_gt_atTop 0] with q hq
      rw [hH q hq]
      ring)
    convert hc using 2
    have h1 := htlK_limit ho hp
    have h2 := htlJ_limit ho hp
    rw [Spec.htl_t, Spec.htl_l, ← h1]
    simp only [c0, PI2]
    have hnc : (k.nc : ℂ) ≠ 0 := Nat.cast_ne_zero.2 hk
    have hpi : (Real.pi : ℂ) ≠ 0 := Complex.ofReal_ne_zero.2 Real.pi_ne_zero
    push_cast
    rw [show (-(om * om) + p * p : ℂ) + (om ^ 2 + p ^ 2) / 2 * (1 ^ 2 * p ^ 2 + om ^ 2) * htlJ om p 1 0
        + Complex.I * om * (om ^ 2 + p ^ 2) / 2 * (htlK om p 1 0 + htlK om p 1 0) =
      -2 * om ^ 2 + Complex.I * om * (om ^ 2 + p ^ 2) * htlK om p 1 0 by
        linear_combination ((om : ℂ) ^ 2 + p ^ 2) / 2 * h2]
    rw [mul_pow, Complex.I_sq]
    field_simp
    ring

theorem htl_quark_t (ho : om ≠ 0) (hp : p ≠ 0) (k : Consts ℝ) (hk : k.nc ≠ 0) {mu : ℝ → ℝ} {v : ℝ}
    (hmu : Tendsto (fun b => b * mu b) (𝓝[>] 0) (𝓝 v)) :
    Tendsto (fun b : ℝ => (b : ℂ) ^ 2 * ∫ q in Ioi (0 : ℝ), gluon.thermal.polarization_quark_t_thermal_part_landau_i k q om p mq b (mu b))
      (𝓝[>] 0) (𝓝 (-(2 * (k.nc : ℂ))⁻¹ * Spec.htl_t om p (1 + 3 * v ^ 2 / Real.pi ^ 2))) := by
  obtain ⟨H, hm, ⟨C, hC⟩, hlim, e, -⟩ := htl_kernel_t mq ho hp k hk
  simp only [e]
  convert htl_core hm hC hlim mq hmu using 2
  have hnc : (k.nc : ℂ) ≠ 0 := Nat.cast_ne_zero.2 hk
  have hpi : (Real.pi : ℂ) ≠ 0 := Complex.ofReal_ne_zero.2 Real.pi_ne_zero
  simp only [Spec.htl_t, Spec.htl_l]
  push_cast
  field_simp
  ring

/-- The part of the integrand beside the distribution: measurable, of linear growth. -/
theorem htl_kernel_zm (ho : om ≠ 0) (k : Consts ℝ) (hk : k.nc ≠ 0) : ∃ H : ℝ → ℂ, Measurable H ∧ (∃ C : ℝ, ∀ x, 0 < x → ‖H x‖ ≤ C * (1 + x)) ∧
    Tendsto (fun x : ℝ => H x / x) atTop (𝓝 (-(2 * (k.nc : ℂ))⁻¹ * (6 / Real.pi ^ 2) * Spec.htl_plasma 1)) ∧
    (∀ b mu q : ℝ, toC (gluon.thermal.zero_momentum.polarization_quark_l_thermal_part_landau_i k q om mq b mu) =
      ((fermi_distribution_double (energy q mq) b mu : ℝ) : ℂ) * H q) ∧
    (∀ mu q : ℝ, toC (gluon.thermal.zero_momentum.polarization_quark_l_thermal_part_zero_temp_landau_i k q om mq mu) =
      ((fermi_distribution_double_zero_temp (energy q mq) mu : ℝ) : ℂ) * H q) := by
  let H : ℝ → ℂ := fun q => (((3 * PI2 * k.nc)⁻¹ * 2 * (q * (q / energy q mq)) * (3 * -(energy q mq * energy q mq) + q * q)
    * (om * om + 4 * (energy q mq * energy q mq))⁻¹ : ℝ) : ℂ)
  have e : ∀ b mu q : ℝ, toC (gluon.thermal.zero_momentum.polarization_quark_l_thermal_part_landau_i k q om mq b mu) =
      ((fermi_distribution_double (energy q mq) b mu : ℝ) : ℂ) * H q := by
    intro b mu q
    simp only [gluon.thermal.zero_momentum.polarization_quark_l_thermal_part_landau_i, toC_real, toC_complex, ofR_real, ofR_complex, H]
    push_cast
    simp only [mul_inv]
    ring
  have e' : ∀ mu q : ℝ, toC (gluon.thermal.zero_momentum.polarization_quark_l_thermal_part_zero_temp_landau_i k q om mq mu) =
      ((fermi_distribution_double_zero_temp (energy q mq) mu : ℝ) : ℂ) * H q := by
    intro mu q
    simp only [gluon.thermal.zero_momentum.polarization_quark_l_thermal_part_zero_temp_landau_i, toC_real, toC_complex, ofR_real, ofR_complex, H]
    push_cast
    simp only [mul_inv]
    ring
  have hm : Measurable H := by
    have h1 := energy_meas mq
    simp only [H]
    fun_prop
  have hc0 : (0 : ℝ) ≤ (3 * PI2 * k.nc)⁻¹ * 2 := by unfold PI2; positivity
  refine ⟨H, hm, ⟨(3 * PI2 * k.nc)⁻¹ * 2, ?_⟩, ?_, e, e'⟩
  · intro q hq
    have he := le_energy_dom (m := mq) hq.le
    have hep := hq.trans_le he
    have h1 : 0 < om * om := mul_self_pos.2 ho
    simp only [H]
    rw [Complex.norm_real, Real.norm_eq_abs, mul_assoc, mul_assoc, abs_mul, abs_of_nonneg hc0]
    refine mul_le_mul_of_nonneg_left ?_ hc0
    have h2 : |(3 * -(energy q mq * energy q mq) + q * q) * (om * om + 4 * (energy q mq * energy q mq))⁻¹| ≤ 1 := by
      rw [abs_mul, abs_inv, ← div_eq_mul_inv, abs_of_pos (by positivity : 0 < om * om + 4 * (energy q mq * energy q mq)),
        div_le_one (by positivity), abs_le]
      constructor <;> nlinarith
    rw [abs_mul]
    have h3 : |q * (q / energy q mq)| ≤ q := by
      rw [abs_of_pos (by positivity)]
      have : q / energy q mq ≤ 1 := (div_le_one hep).2 he
      nlinarith
    calc _ ≤ q * 1 := mul_le_mul h3 h2 (abs_nonneg _) hq.le
      _ ≤ 1 + q := by linarith
  · have hval : (-(2 * (k.nc : ℂ))⁻¹ * (6 / Real.pi ^ 2) * Spec.htl_plasma 1) = ((((3 * PI2 * k.nc)⁻¹ * 2 * (-(1 / 2)) : ℝ) : ℂ)) := by
      simp only [Spec.htl_plasma, PI2]
      have hnc : (k.nc : ℂ) ≠ 0 := Nat.cast_ne_zero.2 hk
      have hpi : (Real.pi : ℂ) ≠ 0 := Complex.ofReal_ne_zero.2 Real.pi_ne_zero
      push_cast
      field_simp
      ring
    rw [hval]
    have hv := htlv_tendsto mq
    have he : Tendsto (fun q => (energy q mq)⁻¹) atTop (𝓝 0) := (energy_atTop mq).inv_tendsto_atTop
    have h1 : Tendsto (fun q => (3 * PI2 * k.nc)⁻¹ * 2 * (htlv mq q * ((-3 + htlv mq q ^ 2) * (om * om * (energy q mq)⁻¹ ^ 2 + 4)⁻¹))) atTop
        (𝓝 ((3 * PI2 * k.nc)⁻¹ * 2 * (1 * ((-3 + 1 ^ 2) * (om * om * 0 ^ 2 + 4)⁻¹)))) := by
      refine (hv.mul (((hv.pow 2).const_add _).mul ((((he.pow 2).const_mul _).add_const _).inv₀ (by norm_num)))).const_mul _
    have h2 := (Complex.continuous_ofReal.tendsto _).comp h1
    rw [show (1 : ℝ) * ((-3 + 1 ^ 2) * (om * om * 0 ^ 2 + 4)⁻¹) = -(1 / 2) by norm_num] at h2
    refine h2.congr' ?_
    filter_upwards [eventually_gt_atTop 0] with q hq
    have hep := hq.trans_le (le_energy_dom (m := mq) hq.le)
    have h3 : 0 < om * om := mul_self_pos.2 ho
    simp only [H, Function.comp, htlv]
    rw [← Complex.ofReal_div]
    congr 1
    have h5 : om * om * (energy q mq)⁻¹ ^ 2 + 4 = (om * om + 4 * (energy q mq * energy q mq)) * (energy q mq)⁻¹ ^ 2 := by field_simp
    rw [h5, mul_inv]
    field_simp

theorem htl_quark_zm (ho : om ≠ 0) (k : Consts ℝ) (hk : k.nc ≠ 0) {mu : ℝ → ℝ} {v : ℝ}
    (hmu : Tendsto (fun b => b * mu b) (𝓝[>] 0) (𝓝 v)) :
    Tendsto (fun b : ℝ => (b : ℂ) ^ 2 * ∫ q in Ioi (0 : ℝ), toC (gluon.thermal.zero_momentum.polarization_quark_l_thermal_part_landau_i k q om mq b (mu b)))
      (𝓝[>] 0) (𝓝 (-(2 * (k.nc : ℂ))⁻¹ * Spec.htl_plasma (1 + 3 * v ^ 2 / Real.pi ^ 2))) := by
  obtain ⟨H, hm, ⟨C, hC⟩, hlim, e, -⟩ := htl_kernel_zm mq ho k hk
  simp only [e]
  convert htl_core hm hC hlim mq hmu using 2
  have hnc : (k.nc : ℂ) ≠ 0 := Nat.cast_ne_zero.2 hk
  have hpi : (Real.pi : ℂ) ≠ 0 := Complex.ofReal_ne_zero.2 Real.pi_ne_zero
  simp only [Spec.htl_plasma]
  push_cast
  field_simp
  ring

/-- From `β → 0` to `T → ∞`. -/
theorem htl_temperature {P : ℝ → ℝ → ℂ} {nc : ℂ} (hnc : nc ≠ 0) {L : ℂ} {mu : ℝ → ℝ} {v : ℝ} (hmu : Tendsto (fun T => mu T / T) atTop (𝓝 v))
    (h : ∀ mu' : ℝ → ℝ, Tendsto (fun b => b * mu' b) (𝓝[>] 0) (𝓝 v) →
      Tendsto (fun b : ℝ => (b : ℂ) ^ 2 * P b (mu' b)) (𝓝[>] 0) (𝓝 (-(2 * nc)⁻¹ * L))) :
    Tendsto (fun T : ℝ => -2 * nc * P T⁻¹ (mu T) / (T : ℂ) ^ 2) atTop (𝓝 L) := by
  have hm : Tendsto (fun b => b * mu b⁻¹) (𝓝[>] (0 : ℝ)) (𝓝 v) := by
    refine (hmu.comp tendsto_inv_nhdsGT_zero).congr fun b => ?_
    simp only [Function.comp, div_inv_eq_mul, mul_comm]
  have h1 := ((h (fun b => mu b⁻¹) hm).comp tendsto_inv_atTop_nhdsGT_zero).const_mul (-2 * nc)
  rw [show -2 * nc * (-(2 * nc)⁻¹ * L) = L by field_simp] at h1
  refine h1.congr fun T => ?_
  simp only [Function.comp, inv_inv]
  push_cast
  ring

variable {mq}

/-- **C75**: `gluon::thermal::polarization_quark_l_thermal_part_landau_w_method`. -/
theorem C75_quark_l (ho : om ≠ 0) (hp : p ≠ 0) (mq : ℝ) (k : Consts ℝ) (hk : k.nc ≠ 0) (integral : Integral ℝ) {mu : ℝ → ℝ} {v : ℝ}
    (hmu : Tendsto (fun T => mu T / T) atTop (𝓝 v)) :
    Tendsto (fun T : ℝ => -2 * (k.nc : ℂ) * gluon.thermal.polarization_quark_l_thermal_part_landau_w_method .exact k om p mq T⁻¹ (mu T) integral / (T : ℂ) ^ 2)
      atTop (𝓝 (Spec.htl_l om p (1 + 3 * v ^ 2 / Real.pi ^ 2))) := by
  simp only [C46_gluon_thermal_polarization_quark_l]
  exact htl_temperature (P := fun b mu => ∫ q in Ioi (0 : ℝ), gluon.thermal.polarization_quark_l_thermal_part_landau_i k q om p mq b mu)
    (Nat.cast_ne_zero.2 hk) hmu fun mu' h => htl_quark_l mq ho hp k hk h

/-- **C75**: `gluon::thermal::polarization_quark_t_thermal_part_landau_w_method`. -/
theorem C75_quark_t (ho : om ≠ 0) (hp : p ≠ 0) (mq : ℝ) (k : Consts ℝ) (hk : k.nc ≠ 0) (integral : Integral ℝ) {mu : ℝ → ℝ} {v : ℝ}
    (hmu : Tendsto (fun T => mu T / T) atTop (𝓝 v)) :
    Tendsto (fun T : ℝ => -2 * (k.nc : ℂ) * gluon.thermal.polarization_quark_t_thermal_part_landau_w_method .exact k om p mq T⁻¹ (mu T) integral / (T : ℂ) ^ 2)
      atTop (𝓝 (Spec.htl_t om p (1 + 3 * v ^ 2 / Real.pi ^ 2))) := by
  simp only [C46_gluon_thermal_polarization_quark_t]
  exact htl_temperature (P := fun b mu => ∫ q in Ioi (0 : ℝ), gluon.thermal.polarization_quark_t_thermal_part_landau_i k q om p mq b mu)
    (Nat.cast_ne_zero.2 hk) hmu fun mu' h => htl_quark_t mq ho hp k hk h

/-- **C75**: at a fixed chemical potential, `T²` itself appears. -/
theorem C75_quark_l_fixed_mu (ho : om ≠ 0) (hp : p ≠ 0) (mq mu : ℝ) (k : Consts ℝ) (hk : k.nc ≠ 0) (integral : Integral ℝ) :
    Tendsto (fun T : ℝ => -2 * (k.nc : ℂ) * gluon.thermal.polarization_quark_l_thermal_part_landau_w_method .exact k om p mq T⁻¹ mu integral / (T : ℂ) ^ 2)
      atTop (𝓝 (Spec.htl_l om p 1)) := by
  simpa using C75_quark_l ho hp mq k hk integral (mu := fun _ => mu) (tendsto_const_nhds.div_atTop tendsto_id)

/-- **C75**: at a fixed chemical potential, `T²` itself appears. -/
theorem C75_quark_t_fixed_mu (ho : om ≠ 0) (hp : p ≠ 0) (mq mu : ℝ) (k : Consts ℝ) (hk : k.nc ≠ 0) (integral : Integral ℝ) :
    Tendsto (fun T : ℝ => -2 * (k.nc : ℂ) * gluon.thermal.polarization_quark_t_thermal_part_landau_w_method .exact k om p mq T⁻¹ mu integral / (T : ℂ) ^ 2)
      atTop (𝓝 (Spec.htl_t om p 1)) := by
  simpa using C75_quark_t ho hp mq k hk integral (mu := fun _ => mu) (tendsto_const_nhds.div_atTop tendsto_id)

/-- **C75**: `gluon::thermal::zero_momentum::polarization_quark_l_thermal_part_landau_w_method`. -/
theorem C75_quark_l_zero_momentum (ho : om ≠ 0) (mq : ℝ) (k : Consts ℝ) (hk : k.nc ≠ 0) (integral : Integral ℝ) {mu : ℝ → ℝ} {v : ℝ}
    (hmu : Tendsto (fun T => mu T / T) atTop (𝓝 v)) :
    Tendsto (fun T : ℝ => -2 * (k.nc : ℂ) * gluon.thermal.zero_momentum.polarization_quark_l_thermal_part_landau_w_method .exact k om mq T⁻¹ (mu T) integral / (T : ℂ) ^ 2)
      atTop (𝓝 (Spec.htl_plasma (1 + 3 * v ^ 2 / Real.pi ^ 2))) := by
  simp only [C46_gluon_thermal_zero_momentum_polarization_quark_l]
  exact htl_temperature (P := fun b mu => ∫ q in Ioi (0 : ℝ), toC (gluon.thermal.zero_momentum.polarization_quark_l_thermal_part_landau_i k q om mq b mu))
    (Nat.cast_ne_zero.2 hk) hmu fun mu' h => htl_quark_zm mq ho k hk h

/-- **C75**: `gluon::thermal::zero_momentum::polarization_quark_t_thermal_part_landau_w_method`. -/
theorem C75_quark_t_zero_momentum (ho : om ≠ 0) (mq : ℝ) (k : Consts ℝ) (hk : k.nc ≠ 0) (integral : Integral ℝ) {mu : ℝ → ℝ} {v : ℝ}
    (hmu : Tendsto (fun T => mu T / T) atTop (𝓝 v)) :
    Tendsto (fun T : ℝ => -2 * (k.nc : ℂ) * gluon.thermal.zero_momentum.polarization_quark_t_thermal_part_landau_w_method .exact k om mq T⁻¹ (mu T) integral / (T : ℂ) ^ 2)
      atTop (𝓝 (Spec.htl_plasma (1 + 3 * v ^ 2 / Real.pi ^ 2))) :=
  C75_quark_l_zero_momentum ho mq k hk integral hmu

/-- **C75**: `gluon::thermal::zero_matsubara::polarization_quark_l_thermal_part_landau_w_method`: the frequency is the regulator. -/
theorem C75_quark_l_zero_matsubara (hp : p ≠ 0) (mq : ℝ) (k : Consts ℝ) (hr : k.matsubara_reg ≠ 0) (hk : k.nc ≠ 0) (integral : Integral ℝ)
    {mu : ℝ → ℝ} {v : ℝ} (hmu : Tendsto (fun T => mu T / T) atTop (𝓝 v)) :
    Tendsto (fun T : ℝ => -2 * (k.nc : ℝ) * gluon.thermal.zero_matsubara.polarization_quark_l_thermal_part_landau_w_method .exact k p mq T⁻¹ (mu T) integral / T ^ 2)
      atTop (𝓝 (Spec.htl_l k.matsubara_reg p (1 + 3 * v ^ 2 / Real.pi ^ 2)).re) := by
  have h := (Complex.continuous_re.tendsto _).comp (C75_quark_l hr hp mq k hk integral hmu)
  refine h.congr' ?_
  filter_upwards [eventually_gt_atTop 0] with T hT
  rw [C46_gluon_thermal_zero_matsubara_polarization_quark_l, Function.comp, C46_gluon_thermal_polarization_quark_l,
    integral_re_Ioi ((dom_quark_l (inv_pos.2 hT) hr k).integrable (inv_pos.2 hT) le_rfl)]
  rw [show -2 * (k.nc : ℂ) = ((-2 * k.nc : ℝ) : ℂ) by push_cast; ring, ← Complex.ofReal_pow, Complex.div_ofReal_re, Complex.re_ofReal_mul]

/-- **C75**: `gluon::thermal::zero_matsubara::polarization_quark_t_thermal_part_landau_w_method`: the frequency is the regulator. -/
theorem C75_quark_t_zero_matsubara (hp : p ≠ 0) (mq : ℝ) (k : Consts ℝ) (hr : k.matsubara_reg ≠ 0) (hk : k.nc ≠ 0) (integral : Integral ℝ)
    {mu : ℝ → ℝ} {v : ℝ} (hmu : Tendsto (fun T => mu T / T) atTop (𝓝 v)) :
    Tendsto (fun T : ℝ => -2 * (k.nc : ℝ) * gluon.thermal.zero_matsubara.polarization_quark_t_thermal_part_landau_w_method .exact k p mq T⁻¹ (mu T) integral / T ^ 2)
      atTop (𝓝 (Spec.htl_t k.matsubara_reg p (1 + 3 * v ^ 2 / Real.pi ^ 2)).re) := by
  have h := (Complex.continuous_re.tendsto _).comp (C75_quark_t hr hp mq k hk integral hmu)
  refine h.congr' ?_
  filter_upwards [eventually_gt_atTop 0] with T hT
  rw [C46_gluon_thermal_zero_matsubara_polarization_quark_t, Function.comp, C46_gluon_thermal_polarization_quark_t,
    integral_re_Ioi ((dom_quark_t (inv_pos.2 hT) hr k).integrable (inv_pos.2 hT) le_rfl)]
  rw [show -2 * (k.nc : ℂ) = ((-2 * k.nc : ℝ) : ℂ) by push_cast; ring, ← Complex.ofReal_pow, Complex.div_ofReal_re, Complex.re_ofReal_mul]

/-- **C75** (the limit is the textbook one): Debye screening of static fields, `t2 / 3`. -/
theorem C75_debye (hp : p ≠ 0) (t2 : ℝ) : Tendsto (fun om => Spec.htl_l om p t2) (𝓝[≠] 0) (𝓝 (t2 / 3)) := by
  have hpc : (p : ℂ) ≠ 0 := Complex.ofReal_ne_zero.2 hp
  have hb : ∀ om : ℝ, ‖Complex.log ((Complex.I * om + p) / (Complex.I * om - p))‖ ≤ Real.pi := by
    intro om
    have h1 : ‖(Complex.I * om + p) / (Complex.I * om - p)‖ = 1 := by
      have hne : Complex.I * om - p ≠ 0 := fun h => by
        have := congrArg Complex.re h
        simp at this
        exact hp this
      rw [norm_div, div_eq_one_iff_eq (norm_ne_zero_iff.2 hne)]
      have : Complex.I * om + p = -(starRingEnd ℂ) (Complex.I * om - p) := by
        apply Complex.ext <;> simp
      rw [this, norm_neg, Complex.norm_conj]
    have h2 : Complex.log ((Complex.I * om + p) / (Complex.I * om - p)) =
        Complex.arg ((Complex.I * om + p) / (Complex.I * om - p)) * Complex.I := by
      apply Complex.ext
      · rw [Complex.log_re, h1]; simp
      · simp [Complex.log_im]
    rw [h2, norm_mul, Complex.norm_I, mul_one, Complex.norm_real]
    exact Complex.abs_arg_le_pi _
  have h0 : Tendsto (fun om : ℝ => Complex.I * om / (2 * p) * Complex.log ((Complex.I * om + p) / (Complex.I * om - p))) (𝓝[≠] 0) (𝓝 0) := by
    refine Tendsto.zero_mul_isBoundedUnder_le ?_ (Filter.isBoundedUnder_of ⟨Real.pi, fun om => hb om⟩)
    have : Continuous fun om : ℝ => Complex.I * (om : ℂ) / (2 * p) := by fun_prop
    have h3 := this.tendsto 0
    simp only [Complex.ofReal_zero, mul_zero, zero_div] at h3
    exact h3.mono_left nhdsWithin_le_nhds
  have h4 : Tendsto (fun om : ℝ => -((Complex.I * om) ^ 2 - (p : ℂ) ^ 2) * (t2 / 3) / (p : ℂ) ^ 2) (𝓝[≠] 0)
      (𝓝 (-((Complex.I * (0 : ℝ)) ^ 2 - (p : ℂ) ^ 2) * (t2 / 3) / (p : ℂ) ^ 2)) := by
    have : Continuous fun om : ℝ => -((Complex.I * (om : ℂ)) ^ 2 - (p : ℂ) ^ 2) * (t2 / 3) / (p : ℂ) ^ 2 := by fun_prop
    exact (this.tendsto 0).mono_left nhdsWithin_le_nhds
  have h5 := h4.mul (h0.const_sub 1)
  rw [show -((Complex.I * ((0 : ℝ) : ℂ)) ^ 2 - (p : ℂ) ^ 2) * (t2 / 3) / (p : ℂ) ^ 2 * (1 - 0) = t2 / 3 by simp; field_simp] at h5
  exact h5

/-- **C75** (the limit is the textbook one): static magnetic fields are not screened. -/
theorem C75_no_magnetic_mass (hp : p ≠ 0) (t2 : ℝ) : Tendsto (fun om => Spec.htl_t om p t2) (𝓝[≠] 0) (𝓝 0) := by
  have h := ((C75_debye hp t2).div_const 2).const_sub ((t2 : ℂ) / 6)
  rwa [show (t2 : ℂ) / 6 - t2 / 3 / 2 = 0 by ring] at h

-- the initial constants, a chemical potential that grows with the temperature
example : (consts.init : Consts ℝ).nc ≠ 0 := by simp [consts.init]

example : Tendsto (fun T : ℝ => 4 * T / T) atTop (𝓝 4) :=
  tendsto_const_nhds.congr' ((eventually_gt_atTop 0).mono fun T hT => (mul_div_cancel_right₀ (4 : ℝ) (ne_of_gt hT)).symm)

end Qcd
