import Verif.Lemmas.HtlGlue

/-! # C98: gluons and ghosts at high temperature

The gluon loop divided by `T²` tends to minus the hard-thermal-loop polarization of `Spec/HardThermalLoop.lean`, for any gluon mass; the
quarks add `nf / (2 nc)` times the same function, at `T² + 3μ²/π²`. The propagators times `T²` tend to the inverse of the sum, times the
`3 / (16π²)` of the normalisation. The ghost self-energy has no term in `T²`. -/

set_option linter.unusedSimpArgs false

namespace Qcd
open MeasureTheory Filter Topology Set
open consts (Consts Integral)

variable {om p m : ℝ}

theorem Hot.temperature {F : ℝ → ℝ → ℂ} {c : ℂ} (h : Hot F c) : Tendsto (fun T : ℝ => (∫ q in Ioi (0 : ℝ), F T⁻¹ q) / (T : ℂ) ^ 2) atTop (𝓝 c) := by
  refine (h.lim.comp tendsto_inv_atTop_nhdsGT_zero).congr fun T => ?_
  simp only [Function.comp]
  push_cast
  ring

theorem inv_sq_atTop : Tendsto (fun T : ℝ => ((T : ℂ) ^ 2)⁻¹) atTop (𝓝 0) := by
  have h := (tendsto_inv_atTop_zero (𝕜 := ℝ)).pow 2
  have h2 := (Complex.continuous_ofReal.tendsto _).comp h
  simp only [Function.comp_def] at h2
  rw [show ((0 ^ 2 : ℝ) : ℂ) = 0 by simp] at h2
  refine h2.congr fun T => ?_
  push_cast
  ring

/-- From the thermal part of the self-energy to the propagator. -/
theorem hot_propagator {P : ℝ → ℂ} {s A c L : ℂ} (hs : s ≠ 0) (hc : c ≠ 0) (hL : L ≠ 0) (h : Tendsto (fun T : ℝ => P T / (T : ℂ) ^ 2) atTop (𝓝 (-L))) :
    Tendsto (fun T : ℝ => (T : ℂ) ^ 2 * (s⁻¹ * (A - s⁻¹ * c * P T)⁻¹)) atTop (𝓝 (c * L)⁻¹) := by
  have h1 : Tendsto (fun T : ℝ => s * A * ((T : ℂ) ^ 2)⁻¹ - c * (P T / (T : ℂ) ^ 2)) atTop (𝓝 (c * L)) := by
    have := (inv_sq_atTop.const_mul (s * A)).sub (h.const_mul c)
    simpa using this
  refine (h1.inv₀ (mul_ne_zero hc hL)).congr' ?_
  filter_upwards [eventually_gt_atTop 0] with T hT
  have hT' : (T : ℂ) ≠ 0 := Complex.ofReal_ne_zero.2 hT.ne'
  rw [show s * A * ((T : ℂ) ^ 2)⁻¹ - c * (P T / (T : ℂ) ^ 2) = ((T : ℂ) ^ 2)⁻¹ * (s * (A - s⁻¹ * c * P T)) by field_simp]
  rw [mul_inv, mul_inv, inv_inv]

theorem hot_propagator_real {P : ℝ → ℝ} {s A c L : ℝ} (hs : s ≠ 0) (hc : c ≠ 0) (hL : L ≠ 0) (h : Tendsto (fun T : ℝ => P T / T ^ 2) atTop (𝓝 (-L))) :
    Tendsto (fun T : ℝ => T ^ 2 * (1 / (A - c * P T / s) / s)) atTop (𝓝 (c * L)⁻¹) := by
  have h1 : Tendsto (fun T : ℝ => s * A * (T ^ 2)⁻¹ - c * (P T / T ^ 2)) atTop (𝓝 (c * L)) := by
    have h2 := (tendsto_inv_atTop_zero (𝕜 := ℝ)).pow 2
    simp only [ne_eq, OfNat.ofNat_ne_zero, not_false_eq_true, zero_pow, inv_pow] at h2
    simpa using (h2.const_mul (s * A)).sub (h.const_mul c)
  refine (h1.inv₀ (mul_ne_zero hc hL)).congr' ?_
  filter_upwards [eventually_gt_atTop 0] with T hT
  rw [show s * A * (T ^ 2)⁻¹ - c * (P T / T ^ 2) = (T ^ 2)⁻¹ * (s * (A - c * P T / s)) by field_simp]
  rw [mul_inv, mul_inv, inv_inv]
  ring

theorem PREFACTOR_ne : ((PREFACTOR : ℝ) : ℂ) ≠ 0 := by
  refine Complex.ofReal_ne_zero.2 ?_
  have := Real.pi_pos
  rw [PREFACTOR]
  positivity

theorem sdim_ne (ho : om ≠ 0) (p : ℝ) : ((om * om + p * p : ℝ) : ℂ) ≠ 0 := by
  have : (0 : ℝ) < om * om + p * p := add_pos_of_pos_of_nonneg (mul_self_pos.2 ho) (mul_self_nonneg p)
  exact_mod_cast this.ne'

/-! The limits are positive numbers. -/

theorem htlK_re (ho : om ≠ 0) : (Complex.I * om * htlK om p 1 0) = ((∫ z in (-1 : ℝ)..1, om ^ 2 / (om ^ 2 + p ^ 2 * z ^ 2) : ℝ) : ℂ) := by
  have hD : ∀ z : ℝ, 0 < om ^ 2 + p ^ 2 * z ^ 2 := fun z => by
    have : 0 < om ^ 2 := by positivity
    have : 0 ≤ p ^ 2 * z ^ 2 := by positivity
    linarith
  have e : ∀ z : ℝ, Complex.I * om * (htlD om p 1 0 z)⁻¹ = ((om ^ 2 / (om ^ 2 + p ^ 2 * z ^ 2) : ℝ) : ℂ) + Complex.I * ((om * (p * z) / (om ^ 2 + p ^ 2 * z ^ 2) : ℝ) : ℂ) := by
    intro z
    have h1 := htlD_ne ho p 1 0 z
    have h2 : ((om : ℂ) ^ 2 + p ^ 2 * z ^ 2) ≠ 0 := by exact_mod_cast (hD z).ne'
    rw [mul_inv_eq_iff_eq_mul₀ h1]
    simp only [htlD]
    push_cast
    field_simp
    linear_combination (-(om : ℂ) ^ 2 * p * z) * Complex.I_sq
  have hc1 : Continuous fun z : ℝ => om ^ 2 / (om ^ 2 + p ^ 2 * z ^ 2) := by
    refine continuous_const.div (by fun_prop) fun z => (hD z).ne'
  have hc2 : Continuous fun z : ℝ => om * (p * z) / (om ^ 2 + p ^ 2 * z ^ 2) := by
    refine Continuous.div (by fun_prop) (by fun_prop) fun z => (hD z).ne'
  have h0 : (∫ z in (-1 : ℝ)..1, om * (p * z) / (om ^ 2 + p ^ 2 * z ^ 2)) = 0 := by
    have h := intervalIntegral.integral_comp_neg (a := -1) (b := 1) (fun z : ℝ => om * (p * z) / (om ^ 2 + p ^ 2 * z ^ 2))
    rw [neg_neg] at h
    have h2 : (∫ z in (-1 : ℝ)..1, om * (p * -z) / (om ^ 2 + p ^ 2 * (-z) ^ 2)) = -∫ z in (-1 : ℝ)..1, om * (p * z) / (om ^ 2 + p ^ 2 * z ^ 2) := by
      rw [← intervalIntegral.integral_neg]
      congr 1
      ext z
      ring
    linarith
  rw [htlK, ← intervalIntegral.integral_const_mul]
  simp only [e]
  have hi1 : IntervalIntegrable (fun z : ℝ => ((om ^ 2 / (om ^ 2 + p ^ 2 * z ^ 2) : ℝ) : ℂ)) volume (-1) 1 :=
    (Complex.continuous_ofReal.comp hc1).intervalIntegrable _ _
  have hi2 : IntervalIntegrable (fun z : ℝ => Complex.I * ((om * (p * z) / (om ^ 2 + p ^ 2 * z ^ 2) : ℝ) : ℂ)) volume (-1) 1 :=
    (continuous_const.mul (Complex.continuous_ofReal.comp hc2)).intervalIntegrable _ _
  rw [intervalIntegral.integral_add hi1 hi2, intervalIntegral.integral_const_mul,
    intervalIntegral.integral_ofReal, intervalIntegral.integral_ofReal, h0]
  simp

/-- **C98** (the limits are positive): longitudinal. -/
theorem C98_htl_l_pos (ho : om ≠ 0) (hp : p ≠ 0) {t2 : ℝ} (ht : 0 < t2) : ∃ r : ℝ, 0 < r ∧ Spec.htl_l om p t2 = r := by
  have hp' : (p : ℂ) ≠ 0 := Complex.ofReal_ne_zero.2 hp
  set A := ∫ z in (-1 : ℝ)..1, om ^ 2 / (om ^ 2 + p ^ 2 * z ^ 2) with hA
  have h0 : 0 < om ^ 2 := by positivity
  have h1 : 0 < p ^ 2 := by positivity
  have hD : ∀ z : ℝ, 0 < om ^ 2 + p ^ 2 * z ^ 2 := fun z => by positivity
  have hlt : A < 2 := by
    have : A < ∫ _ in (-1 : ℝ)..1, (1 : ℝ) := by
      refine intervalIntegral.integral_lt_integral_of_continuousOn_of_le_of_exists_lt (by norm_num)
        (continuous_const.div (by fun_prop) fun z => (hD z).ne').continuousOn continuousOn_const (fun z _ => ?_) ⟨1, by norm_num, ?_⟩
      · rw [div_le_one (hD z)]
        have : 0 ≤ p ^ 2 * z ^ 2 := by positivity
        linarith
      · rw [div_lt_one (hD 1)]
        linarith
    norm_num at this
    exact this
  refine ⟨(om ^ 2 + p ^ 2) * (t2 / 3) / p ^ 2 * (1 - A / 2), ?_, ?_⟩
  · have : 0 < 1 - A / 2 := by linarith
    positivity
  · have h := htlK_re (p := p) ho
    rw [Spec.htl_l, ← htlK_limit ho hp, show Complex.I * om / (2 * p) * (p * htlK om p 1 0) = Complex.I * om * htlK om p 1 0 / 2 by field_simp,
      h, mul_pow, Complex.I_sq]
    push_cast
    ring

/-- **C98** (the limits are positive): transverse. -/
theorem C98_htl_t_pos (ho : om ≠ 0) (hp : p ≠ 0) {t2 : ℝ} (ht : 0 < t2) : ∃ r : ℝ, 0 < r ∧ Spec.htl_t om p t2 = r := by
  have hp' : (p : ℂ) ≠ 0 := Complex.ofReal_ne_zero.2 hp
  set A := ∫ z in (-1 : ℝ)..1, om ^ 2 / (om ^ 2 + p ^ 2 * z ^ 2) with hA
  have h0 : 0 < om ^ 2 := by positivity
  have h1 : 0 < p ^ 2 := by positivity
  have hD : ∀ z : ℝ, 0 < om ^ 2 + p ^ 2 * z ^ 2 := fun z => by positivity
  have hlt : 2 * (om ^ 2 / (om ^ 2 + p ^ 2)) < A := by
    have : (∫ _ in (-1 : ℝ)..1, om ^ 2 / (om ^ 2 + p ^ 2)) < A := by
      refine intervalIntegral.integral_lt_integral_of_continuousOn_of_le_of_exists_lt (by norm_num)
        continuousOn_const (continuous_const.div (by fun_prop) fun z => (hD z).ne').continuousOn (fun z hz => ?_) ⟨0, by norm_num, ?_⟩
      · have : z ^ 2 ≤ 1 := by rw [sq_le_one_iff_abs_le_one, abs_le]; exact ⟨hz.1.le, hz.2⟩
        have := mul_le_mul_of_nonneg_left this h1.le
        exact div_le_div_of_nonneg_left h0.le (hD z) (by linarith)
      · exact div_lt_div_of_pos_left h0 (hD 0) (by norm_num; linarith)
    rw [intervalIntegral.integral_const, smul_eq_mul] at this
    norm_num at this
    exact this
  have hs : 0 < om ^ 2 + p ^ 2 := by positivity
  refine ⟨t2 / 6 - (om ^ 2 + p ^ 2) * (t2 / 3) / p ^ 2 * (1 - A / 2) / 2, ?_, ?_⟩
  · have e : t2 / 6 - (om ^ 2 + p ^ 2) * (t2 / 3) / p ^ 2 * (1 - A / 2) / 2 =
        t2 * (om ^ 2 + p ^ 2) / (12 * p ^ 2) * (A - 2 * (om ^ 2 / (om ^ 2 + p ^ 2))) := by field_simp; ring
    rw [e]
    have : 0 < A - 2 * (om ^ 2 / (om ^ 2 + p ^ 2)) := by linarith
    positivity
  · have h := htlK_re (p := p) ho
    rw [Spec.htl_t, Spec.htl_l, ← htlK_limit ho hp, show Complex.I * om / (2 * p) * (p * htlK om p 1 0) = Complex.I * om * htlK om p 1 0 / 2 by field_simp,
      h, mul_pow, Complex.I_sq]
    push_cast
    ring

/-- **C98**: `ghost::thermal::self_energy_thermal_part_landau_w_method`. -/
theorem C98_ghost (ho : om ≠ 0) (hp : p ≠ 0) (hm : m ≠ 0) (integral : Integral ℝ) :
    Tendsto (fun T : ℝ => ghost.thermal.self_energy_thermal_part_landau_w_method .exact om p m T⁻¹ integral / (T : ℂ) ^ 2) atTop (𝓝 0) := by
  simp only [C46_ghost_thermal_self_energy]
  exact (hot_ghost ho hp hm).temperature

/-- **C98**: the inverse ghost dressing function grows less than `T²`. -/
theorem C98_ghost_dressing (ho : om ≠ 0) (hp : p ≠ 0) (hm : m ≠ 0) (k : Consts ℝ) (g0 : ℝ) :
    Tendsto (fun T : ℝ => ym.thermal.ghost.dressing_inv_landau .exact k om p m T⁻¹ g0 / (T : ℂ) ^ 2) atTop (𝓝 0) := by
  have h := (inv_sq_atTop.const_mul (toC (ghost.dressing_inv_landau ((om * om + p * p) / (m * m)) g0))).add
    ((C98_ghost ho hp hm (consts.get_default_integration_method k)).const_mul (((om * om + p * p)⁻¹ * PREFACTOR : ℝ) : ℂ))
  rw [mul_zero, mul_zero, add_zero] at h
  refine h.congr fun T => ?_
  simp only [ym.thermal.ghost.dressing_inv_landau, ghost.thermal.self_energy_thermal_part_landau, toC_real, ofR_real]
  ring

/-- **C98**: `gluon::thermal::polarization_glue_l_thermal_part_landau_w_method`. -/
theorem C98_glue_l (ho : om ≠ 0) (hp : p ≠ 0) (hm : m ≠ 0) (integral : Integral ℝ) :
    Tendsto (fun T : ℝ => gluon.thermal.polarization_glue_l_thermal_part_landau_w_method .exact om p m T⁻¹ integral / (T : ℂ) ^ 2) atTop
      (𝓝 (-Spec.htl_l om p 1)) := by
  simp only [C46_gluon_thermal_polarization_glue_l]
  exact (hot_glue_l ho hp hm).temperature

/-- **C98**: `gluon::thermal::zero_matsubara::polarization_glue_l_thermal_part_landau_w_method`: the frequency is the regulator. -/
theorem C98_glue_l_zero_matsubara (hp : p ≠ 0) (hm : m ≠ 0) (k : Consts ℝ) (hr : k.matsubara_reg ≠ 0) (integral : Integral ℝ) :
    Tendsto (fun T : ℝ => gluon.thermal.zero_matsubara.polarization_glue_l_thermal_part_landau_w_method .exact k p m T⁻¹ integral / T ^ 2) atTop
      (𝓝 (-(Spec.htl_l k.matsubara_reg p 1).re)) := by
  have h := (Complex.continuous_re.tendsto _).comp (C98_glue_l hr hp hm integral)
  rw [Complex.neg_re] at h
  refine h.congr' ?_
  filter_upwards [eventually_gt_atTop 0] with T hT
  rw [C46_gluon_thermal_zero_matsubara_polarization_glue_l, Function.comp, C46_gluon_thermal_polarization_glue_l,
    integral_re_Ioi ((dom_glue_l (inv_pos.2 hT) hr hm).integrable (inv_pos.2 hT) le_rfl), ← Complex.ofReal_pow, Complex.div_ofReal_re]

/-- **C98**: `ym::thermal::gluon::propagator_l_landau`. -/
theorem C98_ym_propagator_l (ho : om ≠ 0) (hp : p ≠ 0) (hm : m ≠ 0) (k : Consts ℝ) (f0 : ℝ) :
    Tendsto (fun T : ℝ => (T : ℂ) ^ 2 * ym.thermal.gluon.propagator_l_landau .exact k om p m T⁻¹ f0) atTop
      (𝓝 (((16 * Real.pi ^ 2 / 3 : ℝ) : ℂ) * Spec.htl_l om p 1)⁻¹) := by
  obtain ⟨r, hr, e⟩ := C98_htl_l_pos ho hp one_pos
  have h := hot_propagator (A := toC (ym.gluon.dressing_inv_landau ((om * om + p * p) / (m * m)) f0)) (sdim_ne ho p) PREFACTOR_ne
    (e ▸ Complex.ofReal_ne_zero.2 hr.ne') (C98_glue_l ho hp hm (consts.get_default_integration_method k))
  rw [show PREFACTOR = 16 * Real.pi ^ 2 / 3 by rw [PREFACTOR]; ring] at h
  refine h.congr fun T => ?_
  simp only [ym.thermal.gluon.propagator_l_landau, ym.thermal.gluon.dressing_l_landau, ym.thermal.gluon.dressing_l_inv_landau,
    gluon.thermal.polarization_glue_l_thermal_part_landau, toC_real, ofR_real, PREFACTOR]
  push_cast
  ring_nf

/-- **C98**: `ym::thermal::zero_matsubara::gluon::propagator_l_landau`. -/
theorem C98_ym_static_propagator_l (hp : p ≠ 0) (hm : m ≠ 0) (k : Consts ℝ) (hreg : k.matsubara_reg ≠ 0) (f0 : ℝ) :
    Tendsto (fun T : ℝ => T ^ 2 * ym.thermal.zero_matsubara.gluon.propagator_l_landau .exact k p m T⁻¹ f0) atTop
      (𝓝 (16 * Real.pi ^ 2 / 3 * (Spec.htl_l k.matsubara_reg p 1).re)⁻¹) := by
  obtain ⟨r, hr, e⟩ := C98_htl_l_pos hreg hp one_pos
  have hL : (Spec.htl_l k.matsubara_reg p 1).re ≠ 0 := by rw [e, Complex.ofReal_re]; exact hr.ne'
  have h := hot_propagator_real (A := ym.gluon.dressing_inv_landau (p * p / (m * m)) f0) (mul_self_ne_zero.2 hp)
    (Complex.ofReal_ne_zero.1 PREFACTOR_ne) hL (C98_glue_l_zero_matsubara hp hm k hreg (zero_matsubara_default_method k))
  rw [show PREFACTOR = 16 * Real.pi ^ 2 / 3 by rw [PREFACTOR]; ring] at h
  refine h.congr fun T => ?_
  simp only [ym.thermal.zero_matsubara.gluon.propagator_l_landau, ym.thermal.zero_matsubara.gluon.dressing_l_landau,
    ym.thermal.zero_matsubara.gluon.dressing_l_inv_landau, gluon.thermal.zero_matsubara.polarization_glue_l_thermal_part_landau, PREFACTOR]
  ring_nf

theorem hot_qcd_l (ho : om ≠ 0) (hp : p ≠ 0) (hm : m ≠ 0) (mq : ℝ) (k : Consts ℝ) (hk : k.nc ≠ 0) {mu : ℝ → ℝ} {v : ℝ}
    (hmu : Tendsto (fun T => mu T / T) atTop (𝓝 v)) (nf : ℕ) (integral : Integral ℝ) :
    Tendsto (fun T : ℝ => (gluon.thermal.polarization_glue_l_thermal_part_landau_w_method .exact om p m T⁻¹ integral +
      (nf : ℂ) * gluon.thermal.polarization_quark_l_thermal_part_landau_w_method .exact k om p mq T⁻¹ (mu T) integral) / (T : ℂ) ^ 2) atTop
      (𝓝 (-(Spec.htl_l om p 1 + nf / (2 * k.nc) * Spec.htl_l om p (1 + 3 * v ^ 2 / Real.pi ^ 2)))) := by
  have hk' : (k.nc : ℂ) ≠ 0 := Nat.cast_ne_zero.2 hk
  have h := (C98_glue_l ho hp hm integral).add ((C75_quark_l ho hp mq k hk integral hmu).const_mul (-(nf : ℂ) / (2 * k.nc)))
  rw [show -Spec.htl_l om p 1 + -(nf : ℂ) / (2 * k.nc) * Spec.htl_l om p (1 + 3 * v ^ 2 / Real.pi ^ 2) =
    -(Spec.htl_l om p 1 + nf / (2 * k.nc) * Spec.htl_l om p (1 + 3 * v ^ 2 / Real.pi ^ 2)) by ring] at h
  refine h.congr fun T => ?_
  field_simp

theorem hot_qcd_l_ne (ho : om ≠ 0) (hp : p ≠ 0) (nc nf : ℕ) (v : ℝ) :
    ∃ r : ℝ, 0 < r ∧ Spec.htl_l om p 1 + nf / (2 * nc) * Spec.htl_l om p (1 + 3 * v ^ 2 / Real.pi ^ 2) = r := by
  obtain ⟨r, hr, e⟩ := C98_htl_l_pos ho hp one_pos
  obtain ⟨r', hr', e'⟩ := C98_htl_l_pos ho hp (t2 := 1 + 3 * v ^ 2 / Real.pi ^ 2) (by positivity)
  refine ⟨r + nf / (2 * nc) * r', by positivity, ?_⟩
  rw [e, e']
  push_cast
  ring

/-- **C98**: `qcd::thermal::gluon::propagator_l_landau`, the chemical potential growing with the temperature or not. -/
theorem C98_qcd_propagator_l (ho : om ≠ 0) (hp : p ≠ 0) (hm : m ≠ 0) (mq : ℝ) (k : Consts ℝ) (hk : k.nc ≠ 0) {mu : ℝ → ℝ} {v : ℝ}
    (hmu : Tendsto (fun T => mu T / T) atTop (𝓝 v)) (f0 : ℝ) :
    Tendsto (fun T : ℝ => (T : ℂ) ^ 2 * qcd.thermal.gluon.propagator_l_landau .exact k om p m mq T⁻¹ (mu T) f0) atTop
      (𝓝 (((16 * Real.pi ^ 2 / 3 : ℝ) : ℂ) *
        (Spec.htl_l om p 1 + k.nf / (2 * k.nc) * Spec.htl_l om p (1 + 3 * v ^ 2 / Real.pi ^ 2)))⁻¹) := by
  obtain ⟨r, hr, e⟩ := hot_qcd_l_ne ho hp k.nc k.nf v
  have h := hot_propagator (A := toC (qcd.gluon.dressing_inv_landau k ((om * om + p * p) / (m * m)) (mq / m) f0)) (sdim_ne ho p) PREFACTOR_ne
    (e ▸ Complex.ofReal_ne_zero.2 hr.ne') (hot_qcd_l ho hp hm mq k hk hmu k.nf (consts.get_default_integration_method k))
  rw [show PREFACTOR = 16 * Real.pi ^ 2 / 3 by rw [PREFACTOR]; ring] at h
  refine h.congr fun T => ?_
  simp only [qcd.thermal.gluon.propagator_l_landau, qcd.thermal.gluon.dressing_l_landau, qcd.thermal.gluon.dressing_l_inv_landau,
    gluon.thermal.polarization_glue_l_thermal_part_landau, gluon.thermal.polarization_quark_l_thermal_part_landau, toC_real, ofR_real, ofR_complex, PREFACTOR]
  push_cast
  ring_nf

/-- **C98**: at a fixed chemical potential every flavour counts `1 / (2 nc)` of the gluons. -/
theorem C98_qcd_propagator_l_fixed_mu (ho : om ≠ 0) (hp : p ≠ 0) (hm : m ≠ 0) (mq mu : ℝ) (k : Consts ℝ) (hk : k.nc ≠ 0) (f0 : ℝ) :
    Tendsto (fun T : ℝ => (T : ℂ) ^ 2 * qcd.thermal.gluon.propagator_l_landau .exact k om p m mq T⁻¹ mu f0) atTop
      (𝓝 (((16 * Real.pi ^ 2 / 3 : ℝ) : ℂ) * ((1 + k.nf / (2 * k.nc)) * Spec.htl_l om p 1))⁻¹) := by
  have h := C98_qcd_propagator_l ho hp hm mq k hk (mu := fun _ => mu) (tendsto_const_nhds.div_atTop tendsto_id) f0
  norm_num at h
  rw [show Spec.htl_l om p 1 + k.nf / (2 * k.nc) * Spec.htl_l om p 1 = (1 + k.nf / (2 * k.nc)) * Spec.htl_l om p 1 by ring] at h
  push_cast
  simpa using h

/-- **C98**: `qcd::thermal::zero_matsubara::gluon::propagator_l_landau`. -/
theorem C98_qcd_static_propagator_l (hp : p ≠ 0) (hm : m ≠ 0) (mq : ℝ) (k : Consts ℝ) (hk : k.nc ≠ 0) (hreg : k.matsubara_reg ≠ 0)
    {mu : ℝ → ℝ} {v : ℝ} (hmu : Tendsto (fun T => mu T / T) atTop (𝓝 v)) (f0 : ℝ) :
    Tendsto (fun T : ℝ => T ^ 2 * qcd.thermal.zero_matsubara.gluon.propagator_l_landau .exact k p m mq T⁻¹ (mu T) f0) atTop
      (𝓝 (16 * Real.pi ^ 2 / 3 *
        (Spec.htl_l k.matsubara_reg p 1 + k.nf / (2 * k.nc) * Spec.htl_l k.matsubara_reg p (1 + 3 * v ^ 2 / Real.pi ^ 2)).re)⁻¹) := by
  obtain ⟨r, hr, e⟩ := hot_qcd_l_ne hreg hp k.nc k.nf v
  have hL : (Spec.htl_l k.matsubara_reg p 1 + k.nf / (2 * k.nc) * Spec.htl_l k.matsubara_reg p (1 + 3 * v ^ 2 / Real.pi ^ 2)).re ≠ 0 := by
    rw [e, Complex.ofReal_re]; exact hr.ne'
  have hk' : (k.nc : ℝ) ≠ 0 := Nat.cast_ne_zero.2 hk
  have h0 := ((C75_quark_l_zero_matsubara hp mq k hreg hk (zero_matsubara_default_method k) hmu).const_mul (-(k.nf : ℝ) / (2 * k.nc))).add
    (C98_glue_l_zero_matsubara hp hm k hreg (zero_matsubara_default_method k))
  have h1 : Tendsto (fun T : ℝ => ((k.nf : ℝ) * gluon.thermal.zero_matsubara.polarization_quark_l_thermal_part_landau_w_method .exact k p mq T⁻¹ (mu T)
      (zero_matsubara_default_method k) + gluon.thermal.zero_matsubara.polarization_glue_l_thermal_part_landau_w_method .exact k p m T⁻¹
      (zero_matsubara_default_method k)) / T ^ 2) atTop
      (𝓝 (-(Spec.htl_l k.matsubara_reg p 1 + k.nf / (2 * k.nc) * Spec.htl_l k.matsubara_reg p (1 + 3 * v ^ 2 / Real.pi ^ 2)).re)) := by
    rw [show (k.nf : ℂ) / (2 * k.nc) = ((k.nf / (2 * k.nc) : ℝ) : ℂ) by push_cast; ring, Complex.add_re, Complex.re_ofReal_mul]
    rw [show ∀ a b : ℝ, -(k.nf : ℝ) / (2 * k.nc) * a + -b = -(b + k.nf / (2 * k.nc) * a) by intros; ring] at h0
    refine h0.congr fun T => ?_
    field_simp
  have h := hot_propagator_real (A := qcd.gluon.dressing_inv_landau k (p * p / (m * m)) (mq / m) f0) (mul_self_ne_zero.2 hp)
    (Complex.ofReal_ne_zero.1 PREFACTOR_ne) hL h1
  rw [show PREFACTOR = 16 * Real.pi ^ 2 / 3 by rw [PREFACTOR]; ring] at h
  refine h.congr fun T => ?_
  simp only [qcd.thermal.zero_matsubara.gluon.propagator_l_landau, qcd.thermal.zero_matsubara.gluon.dressing_l_landau,
    qcd.thermal.zero_matsubara.gluon.dressing_l_inv_landau, gluon.thermal.zero_matsubara.polarization_glue_l_thermal_part_landau,
    gluon.thermal.zero_matsubara.polarization_quark_l_thermal_part_landau, PREFACTOR]
  ring_nf

/-- Sum over a list of quarks of their flavours. -/
theorem hot_quarks_l (ho : om ≠ 0) (hp : p ≠ 0) (k : Consts ℝ) (hk : k.nc ≠ 0) {mu : ℝ → ℝ} {v : ℝ}
    (hmu : Tendsto (fun T => mu T / T) atTop (𝓝 v)) (integral : Integral ℝ) (qs : List QuarkInternal) :
    Tendsto (fun T : ℝ => (qs.map fun qi => gluon.thermal.polarization_quark_l_thermal_part_landau_w_method .exact k om p qi.mq T⁻¹ (mu T) integral * (qi.nf : ℂ)).sum /
      (T : ℂ) ^ 2) atTop (𝓝 (-(((qs.map fun qi => qi.nf).sum : ℕ) / (2 * k.nc) * Spec.htl_l om p (1 + 3 * v ^ 2 / Real.pi ^ 2)))) := by
  have hk' : (k.nc : ℂ) ≠ 0 := Nat.cast_ne_zero.2 hk
  induction qs with
  | nil => simp
  | cons a qs ih =>
    have h := ((C75_quark_l ho hp a.mq k hk integral hmu).const_mul (-(a.nf : ℂ) / (2 * k.nc))).add ih
    simp only [List.map_cons, List.sum_cons]
    push_cast at h ⊢
    rw [show ∀ x y z : ℂ, -x / (2 * (k.nc : ℂ)) * y + -(z / (2 * k.nc) * y) = -((x + z) / (2 * k.nc) * y) by intros; ring] at h
    refine h.congr fun T => ?_
    field_simp

theorem hot_qcd_config_l (ho : om ≠ 0) (hp : p ≠ 0) (k : Consts ℝ) (hk : k.nc ≠ 0) {mu : ℝ → ℝ} {v : ℝ}
    (hmu : Tendsto (fun T => mu T / T) atTop (𝓝 v)) (f0 : ℝ) (config : FieldConfig) (hm : config.gluon ≠ 0) :
    Tendsto (fun T : ℝ => (T : ℂ) ^ 2 * qcd.thermal.gluon.propagator_l_landau_w_field_config .exact k om p T⁻¹ (mu T) f0 config) atTop
      (𝓝 (((16 * Real.pi ^ 2 / 3 : ℝ) : ℂ) * (Spec.htl_l om p 1 +
        ((config.quarks_internal.map fun qi => qi.nf).sum : ℕ) / (2 * k.nc) * Spec.htl_l om p (1 + 3 * v ^ 2 / Real.pi ^ 2)))⁻¹) := by
  obtain ⟨r, hr, e⟩ := hot_qcd_l_ne ho hp k.nc (config.quarks_internal.map fun qi => qi.nf).sum v
  have h0 := (C98_glue_l ho hp hm (consts.get_default_integration_method k)).add
    (hot_quarks_l ho hp k hk hmu (consts.get_default_integration_method k) config.quarks_internal)
  rw [← neg_add] at h0
  simp only [← add_div] at h0
  have h := hot_propagator (A := qcd.gluon.dressing_inv_landau_w_field_config k ((((om * om : ℝ) : ℂ) + ((p * p : ℝ) : ℂ)) / ((config.gluon * config.gluon : ℝ) : ℂ)) f0 config) (sdim_ne ho p) PREFACTOR_ne
    (e ▸ Complex.ofReal_ne_zero.2 hr.ne') h0
  rw [show PREFACTOR = 16 * Real.pi ^ 2 / 3 by rw [PREFACTOR]; ring] at h
  refine h.congr fun T => ?_
  simp only [qcd.thermal.gluon.propagator_l_landau_w_field_config, qcd.thermal.gluon.dressing_l_landau_w_field_config,
    qcd.thermal.gluon.dressing_l_inv_landau_w_field_config,
    gluon.thermal.polarization_glue_l_thermal_part_landau, gluon.thermal.polarization_quark_l_thermal_part_landau, toC_real, toC_complex, ofR_real, ofR_complex, PREFACTOR]
  push_cast
  ring_nf

/-- **C98**: `qcd::thermal::gluon::propagator_l_landau_w_field_config`: the flavours of all the quarks of the configuration count alike, whatever their
masses. The number of colours is that of the library, not of the configuration. -/
theorem C98_qcd_propagator_l_w_field_config (ho : om ≠ 0) (hp : p ≠ 0) (hm : m ≠ 0) (k : Consts ℝ) (hk : k.nc ≠ 0) {mu : ℝ → ℝ} {v : ℝ}
    (hmu : Tendsto (fun T => mu T / T) atTop (𝓝 v)) (f0 : ℝ) (nc : ℕ) (quarks : List (ℕ × ℝ)) :
    Tendsto (fun T : ℝ => (T : ℂ) ^ 2 * qcd.thermal.gluon.propagator_l_landau_w_field_config .exact k om p T⁻¹ (mu T) f0 (FieldConfig.new nc m quarks)) atTop
      (𝓝 (((16 * Real.pi ^ 2 / 3 : ℝ) : ℂ) * (Spec.htl_l om p 1 +
        ((quarks.map fun q => q.1).sum : ℕ) / (2 * k.nc) * Spec.htl_l om p (1 + 3 * v ^ 2 / Real.pi ^ 2)))⁻¹) := by
  have h := hot_qcd_config_l ho hp k hk hmu f0 (FieldConfig.new nc m quarks) hm
  simpa only [FieldConfig.new, List.map_map, Function.comp_def, QuarkInternal.new] using h

/-- **C98**: `gluon::thermal::polarization_glue_t_thermal_part_landau_w_method`. -/
theorem C98_glue_t (ho : om ≠ 0) (hp : p ≠ 0) (hm : m ≠ 0) (integral : Integral ℝ) :
    Tendsto (fun T : ℝ => gluon.thermal.polarization_glue_t_thermal_part_landau_w_method .exact om p m T⁻¹ integral / (T : ℂ) ^ 2) atTop
      (𝓝 (-Spec.htl_t om p 1)) := by
  simp only [C46_gluon_thermal_polarization_glue_t]
  exact (hot_glue_t ho hp hm).temperature

/-- **C98**: `gluon::thermal::zero_matsubara::polarization_glue_t_thermal_part_landau_w_method`: the frequency is the regulator. -/
theorem C98_glue_t_zero_matsubara (hp : p ≠ 0) (hm : m ≠ 0) (k : Consts ℝ) (hr : k.matsubara_reg ≠ 0) (integral : Integral ℝ) :
    Tendsto (fun T : ℝ => gluon.thermal.zero_matsubara.polarization_glue_t_thermal_part_landau_w_method .exact k p m T⁻¹ integral / T ^ 2) atTop
      (𝓝 (-(Spec.htl_t k.matsubara_reg p 1).re)) := by
  have h := (Complex.continuous_re.tendsto _).comp (C98_glue_t hr hp hm integral)
  rw [Complex.neg_re] at h
  refine h.congr' ?_
  filter_upwards [eventually_gt_atTop 0] with T hT
  rw [C46_gluon_thermal_zero_matsubara_polarization_glue_t, Function.comp, C46_gluon_thermal_polarization_glue_t,
    integral_re_Ioi ((dom_glue_t (inv_pos.2 hT) hr hm).integrable (inv_pos.2 hT) le_rfl), ← Complex.ofReal_pow, Complex.div_ofReal_re]

/-- **C98**: `ym::thermal::gluon::propagator_t_landau`. -/
theorem C98_ym_propagator_t (ho : om ≠ 0) (hp : p ≠ 0) (hm : m ≠ 0) (k : Consts ℝ) (f0 : ℝ) :
    Tendsto (fun T : ℝ => (T : ℂ) ^ 2 * ym.thermal.gluon.propagator_t_landau .exact k om p m T⁻¹ f0) atTop
      (𝓝 (((16 * Real.pi ^ 2 / 3 : ℝ) : ℂ) * Spec.htl_t om p 1)⁻¹) := by
  obtain ⟨r, hr, e⟩ := C98_htl_t_pos ho hp one_pos
  have h := hot_propagator (A := toC (ym.gluon.dressing_inv_landau ((om * om + p * p) / (m * m)) f0)) (sdim_ne ho p) PREFACTOR_ne
    (e ▸ Complex.ofReal_ne_zero.2 hr.ne') (C98_glue_t ho hp hm (consts.get_default_integration_method k))
  rw [show PREFACTOR = 16 * Real.pi ^ 2 / 3 by rw [PREFACTOR]; ring] at h
  refine h.congr fun T => ?_
  simp only [ym.thermal.gluon.propagator_t_landau, ym.thermal.gluon.dressing_t_landau, ym.thermal.gluon.dressing_t_inv_landau,
    gluon.thermal.polarization_glue_t_thermal_part_landau, toC_real, ofR_real, PREFACTOR]
  push_cast
  ring_nf

/-- **C98**: `ym::thermal::zero_matsubara::gluon::propagator_t_landau`. -/
theorem C98_ym_static_propagator_t (hp : p ≠ 0) (hm : m ≠ 0) (k : Consts ℝ) (hreg : k.matsubara_reg ≠ 0) (f0 : ℝ) :
    Tendsto (fun T : ℝ => T ^ 2 * ym.thermal.zero_matsubara.gluon.propagator_t_landau .exact k p m T⁻¹ f0) atTop
      (𝓝 (16 * Real.pi ^ 2 / 3 * (Spec.htl_t k.matsubara_reg p 1).re)⁻¹) := by
  obtain ⟨r, hr, e⟩ := C98_htl_t_pos hreg hp one_pos
  have hL : (Spec.htl_t k.matsubara_reg p 1).re ≠ 0 := by rw [e, Complex.ofReal_re]; exact hr.ne'
  have h := hot_propagator_real (A := ym.gluon.dressing_inv_landau (p * p / (m * m)) f0) (mul_self_ne_zero.2 hp)
    (Complex.ofReal_ne_zero.1 PREFACTOR_ne) hL (C98_glue_t_zero_matsubara hp hm k hreg (zero_matsubara_default_method k))
  rw [show PREFACTOR = 16 * Real.pi ^ 2 / 3 by rw [PREFACTOR]; ring] at h
  refine h.congr fun T => ?_
  simp only [ym.thermal.zero_matsubara.gluon.propagator_t_landau, ym.thermal.zero_matsubara.gluon.dressing_t_landau,
    ym.thermal.zero_matsubara.gluon.dressing_t_inv_landau, gluon.thermal.zero_matsubara.polarization_glue_t_thermal_part_landau, PREFACTOR]
  ring_nf

theorem hot_qcd_t (ho : om ≠ 0) (hp : p ≠ 0) (hm : m ≠ 0) (mq : ℝ) (k : Consts ℝ) (hk : k.nc ≠ 0) {mu : ℝ → ℝ} {v : ℝ}
    (hmu : Tendsto (fun T => mu T / T) atTop (𝓝 v)) (nf : ℕ) (integral : Integral ℝ) :
    Tendsto (fun T : ℝ => (gluon.thermal.polarization_glue_t_thermal_part_landau_w_method .exact om p m T⁻¹ integral +
      (nf : ℂ) * gluon.thermal.polarization_quark_t_thermal_part_landau_w_method .exact k om p mq T⁻¹ (mu T) integral) / (T : ℂ) ^ 2) atTop
      (𝓝 (-(Spec.htl_t om p 1 + nf / (2 * k.nc) * Spec.htl_t om p (1 + 3 * v ^ 2 / Real.pi ^ 2)))) := by
  have hk' : (k.nc : ℂ) ≠ 0 := Nat.cast_ne_zero.2 hk
  have h := (C98_glue_t ho hp hm integral).add ((C75_quark_t ho hp mq k hk integral hmu).const_mul (-(nf : ℂ) / (2 * k.nc)))
  rw [show -Spec.htl_t om p 1 + -(nf : ℂ) / (2 * k.nc) * Spec.htl_t om p (1 + 3 * v ^ 2 / Real.pi ^ 2) =
    -(Spec.htl_t om p 1 + nf / (2 * k.nc) * Spec.htl_t om p (1 + 3 * v ^ 2 / Real.pi ^ 2)) by ring] at h
  refine h.congr fun T => ?_
  field_simp

theorem hot_qcd_t_ne (ho : om ≠ 0) (hp : p ≠ 0) (nc nf : ℕ) (v : ℝ) :
    ∃ r : ℝ, 0 < r ∧ Spec.htl_t om p 1 + nf / (2 * nc) * Spec.htl_t om p (1 + 3 * v ^ 2 / Real.pi ^ 2) = r := by
  obtain ⟨r, hr, e⟩ := C98_htl_t_pos ho hp one_pos
  obtain ⟨r', hr', e'⟩ := C98_htl_t_pos ho hp (t2 := 1 + 3 * v ^ 2 / Real.pi ^ 2) (by positivity)
  refine ⟨r + nf / (2 * nc) * r', by positivity, ?_⟩
  rw [e, e']
  push_cast
  ring

/-- **C98**: `qcd::thermal::gluon::propagator_t_landau`, the chemical potential growing with the temperature or not. -/
theorem C98_qcd_propagator_t (ho : om ≠ 0) (hp : p ≠ 0) (hm : m ≠ 0) (mq : ℝ) (k : Consts ℝ) (hk : k.nc ≠ 0) {mu : ℝ → ℝ} {v : ℝ}
    (hmu : Tendsto (fun T => mu T / T) atTop (𝓝 v)) (f0 : ℝ) :
    Tendsto (fun T : ℝ => (T : ℂ) ^ 2 * qcd.thermal.gluon.propagator_t_landau .exact k om p m mq T⁻¹ (mu T) f0) atTop
      (𝓝 (((16 * Real.pi ^ 2 / 3 : ℝ) : ℂ) *
        (Spec.htl_t om p 1 + k.nf / (2 * k.nc) * Spec.htl_t om p (1 + 3 * v ^ 2 / Real.pi ^ 2)))⁻¹) := by
  obtain ⟨r, hr, e⟩ := hot_qcd_t_ne ho hp k.nc k.nf v
  have h := hot_propagator (A := toC (qcd.gluon.dressing_inv_landau k ((om * om + p * p) / (m * m)) (mq / m) f0)) (sdim_ne ho p) PREFACTOR_ne
    (e ▸ Complex.ofReal_ne_zero.2 hr.ne') (hot_qcd_t ho hp hm mq k hk hmu k.nf (consts.get_default_integration_method k))
  rw [show PREFACTOR = 16 * Real.pi ^ 2 / 3 by rw [PREFACTOR]; ring] at h
  refine h.congr fun T => ?_
  simp only [qcd.thermal.gluon.propagator_t_landau, qcd.thermal.gluon.dressing_t_landau, qcd.thermal.gluon.dressing_t_inv_landau,
    gluon.thermal.polarization_glue_t_thermal_part_landau, gluon.thermal.polarization_quark_t_thermal_part_landau, toC_real, ofR_real, ofR_complex, PREFACTOR]
  push_cast
  ring_nf

/-- **C98**: at a fixed chemical potential every flavour counts `1 / (2 nc)` of the gluons. -/
theorem C98_qcd_propagator_t_fixed_mu (ho : om ≠ 0) (hp : p ≠ 0) (hm : m ≠ 0) (mq mu : ℝ) (k : Consts ℝ) (hk : k.nc ≠ 0) (f0 : ℝ) :
    Tendsto (fun T : ℝ => (T : ℂ) ^ 2 * qcd.thermal.gluon.propagator_t_landau .exact k om p m mq T⁻¹ mu f0) atTop
      (𝓝 (((16 * Real.pi ^ 2 / 3 : ℝ) : ℂ) * ((1 + k.nf / (2 * k.nc)) * Spec.htl_t om p 1))⁻¹) := by
  have h := C98_qcd_propagator_t ho hp hm mq k hk (mu := fun _ => mu) (tendsto_const_nhds.div_atTop tendsto_id) f0
  norm_num at h
  rw [show Spec.htl_t om p 1 + k.nf / (2 * k.nc) * Spec.htl_t om p 1 = (1 + k.nf / (2 * k.nc)) * Spec.htl_t om p 1 by ring] at h
  push_cast
  simpa using h

/-- **C98**: `qcd::thermal::zero_matsubara::gluon::propagator_t_landau`. -/
theorem C98_qcd_static_propagator_t (hp : p ≠ 0) (hm : m ≠ 0) (mq : ℝ) (k : Consts ℝ) (hk : k.nc ≠ 0) (hreg : k.matsubara_reg ≠ 0)
    {mu : ℝ → ℝ} {v : ℝ} (hmu : Tendsto (fun T => mu T / T) atTop (𝓝 v)) (f0 : ℝ) :
    Tendsto (fun T : ℝ => T ^ 2 * qcd.thermal.zero_matsubara.gluon.propagator_t_landau .exact k p m mq T⁻¹ (mu T) f0) atTop
      (𝓝 (16 * Real.pi ^ 2 / 3 *
        (Spec.htl_t k.matsubara_reg p 1 + k.nf / (2 * k.nc) * Spec.htl_t k.matsubara_reg p (1 + 3 * v ^ 2 / Real.pi ^ 2)).re)⁻¹) := by
  obtain ⟨r, hr, e⟩ := hot_qcd_t_ne hreg hp k.nc k.nf v
  have hL : (Spec.htl_t k.matsubara_reg p 1 + k.nf / (2 * k.nc) * Spec.htl_t k.matsubara_reg p (1 + 3 * v ^ 2 / Real.pi ^ 2)).re ≠ 0 := by
    rw [e, Complex.ofReal_re]; exact hr.ne'
  have hk' : (k.nc : ℝ) ≠ 0 := Nat.cast_ne_zero.2 hk
  have h0 := ((C75_quark_t_zero_matsubara hp mq k hreg hk (zero_matsubara_default_method k) hmu).const_mul (-(k.nf : ℝ) / (2 * k.nc))).add
    (C98_glue_t_zero_matsubara hp hm k hreg (zero_matsubara_default_method k))
  have h1 : Tendsto (fun T : ℝ => ((k.nf : ℝ) * gluon.thermal.zero_matsubara.polarization_quark_t_thermal_part_landau_w_method .exact k p mq T⁻¹ (mu T)
      (zero_matsubara_default_method k) + gluon.thermal.zero_matsubara.polarization_glue_t_thermal_part_landau_w_method .exact k p m T⁻¹
      (zero_matsubara_default_method k)) / T ^ 2) atTop
      (𝓝 (-(Spec.htl_t k.matsubara_reg p 1 + k.nf / (2 * k.nc) * Spec.htl_t k.matsubara_reg p (1 + 3 * v ^ 2 / Real.pi ^ 2)).re)) := by
    rw [show (k.nf : ℂ) / (2 * k.nc) = ((k.nf / (2 * k.nc) : ℝ) : ℂ) by push_cast; ring, Complex.add_re, Complex.re_ofReal_mul]
    rw [show ∀ a b : ℝ, -(k.nf : ℝ) / (2 * k.nc) * a + -b = -(b + k.nf / (2 * k.nc) * a) by intros; ring] at h0
    refine h0.congr fun T => ?_
    field_simp
  have h := hot_propagator_real (A := qcd.gluon.dressing_inv_landau k (p * p / (m * m)) (mq / m) f0) (mul_self_ne_zero.2 hp)
    (Complex.ofReal_ne_zero.1 PREFACTOR_ne) hL h1
  rw [show PREFACTOR = 16 * Real.pi ^ 2 / 3 by rw [PREFACTOR]; ring] at h
  refine h.congr fun T => ?_
  simp only [qcd.thermal.zero_matsubara.gluon.propagator_t_landau, qcd.thermal.zero_matsubara.gluon.dressing_t_landau,
    qcd.thermal.zero_matsubara.gluon.dressing_t_inv_landau, gluon.thermal.zero_matsubara.polarization_glue_t_thermal_part_landau,
    gluon.thermal.zero_matsubara.polarization_quark_t_thermal_part_landau, PREFACTOR]
  ring_nf

/-- Sum over a list of quarks of their flavours. -/
theorem hot_quarks_t (ho : om ≠ 0) (hp : p ≠ 0) (k : Consts ℝ) (hk : k.nc ≠ 0) {mu : ℝ → ℝ} {v : ℝ}
    (hmu : Tendsto (fun T => mu T / T) atTop (𝓝 v)) (integral : Integral ℝ) (qs : List QuarkInternal) :
    Tendsto (fun T : ℝ => (qs.map fun qi => gluon.thermal.polarization_quark_t_thermal_part_landau_w_method .exact k om p qi.mq T⁻¹ (mu T) integral * (qi.nf : ℂ)).sum /
      (T : ℂ) ^ 2) atTop (𝓝 (-(((qs.map fun qi => qi.nf).sum : ℕ) / (2 * k.nc) * Spec.htl_t om p (1 + 3 * v ^ 2 / Real.pi ^ 2)))) := by
  have hk' : (k.nc : ℂ) ≠ 0 := Nat.cast_ne_zero.2 hk
  induction qs with
  | nil => simp
  | cons a qs ih =>
    have h := ((C75_quark_t ho hp a.mq k hk integral hmu).const_mul (-(a.nf : ℂ) / (2 * k.nc))).add ih
    simp only [List.map_cons, List.sum_cons]
    push_cast at h ⊢
    rw [show ∀ x y z : ℂ, -x / (2 * (k.nc : ℂ)) * y + -(z / (2 * k.nc) * y) = -((x + z) / (2 * k.nc) * y) by intros; ring] at h
    refine h.congr fun T => ?_
    field_simp

theorem hot_qcd_config_t (ho : om ≠ 0) (hp : p ≠ 0) (k : Consts ℝ) (hk : k.nc ≠ 0) {mu : ℝ → ℝ} {v : ℝ}
    (hmu : Tendsto (fun T => mu T / T) atTop (𝓝 v)) (f0 : ℝ) (config : FieldConfig) (hm : config.gluon ≠ 0) :
    Tendsto (fun T : ℝ => (T : ℂ) ^ 2 * qcd.thermal.gluon.propagator_t_landau_w_field_config .exact k om p T⁻¹ (mu T) f0 config) atTop
      (𝓝 (((16 * Real.pi ^ 2 / 3 : ℝ) : ℂ) * (Spec.htl_t om p 1 +
        ((config.quarks_internal.map fun qi => qi.nf).sum : ℕ) / (2 * k.nc) * Spec.htl_t om p (1 + 3 * v ^ 2 / Real.pi ^ 2)))⁻¹) := by
  obtain ⟨r, hr, e⟩ := hot_qcd_t_ne ho hp k.nc (config.quarks_internal.map fun qi => qi.nf).sum v
  have h0 := (C98_glue_t ho hp hm (consts.get_default_integration_method k)).add
    (hot_quarks_t ho hp k hk hmu (consts.get_default_integration_method k) config.quarks_internal)
  rw [← neg_add] at h0
  simp only [← add_div] at h0
  have h := hot_propagator (A := toC (qcd.gluon.dressing_inv_landau_w_field_config k ((om * om + p * p) / (config.gluon * config.gluon)) f0 config)) (sdim_ne ho p) PREFACTOR_ne
    (e ▸ Complex.ofReal_ne_zero.2 hr.ne') h0
  rw [show PREFACTOR = 16 * Real.pi ^ 2 / 3 by rw [PREFACTOR]; ring] at h
  refine h.congr fun T => ?_
  simp only [qcd.thermal.gluon.propagator_t_landau_w_field_config, qcd.thermal.gluon.dressing_t_landau_w_field_config,
    qcd.thermal.gluon.dressing_t_inv_landau_w_field_config,
    gluon.thermal.polarization_glue_t_thermal_part_landau, gluon.thermal.polarization_quark_t_thermal_part_landau, toC_real, toC_complex, ofR_real, ofR_complex, PREFACTOR]
  push_cast
  ring_nf

/-- **C98**: `qcd::thermal::gluon::propagator_t_landau_w_field_config`: the flavours of all the quarks of the configuration count alike, whatever their
masses. The number of colours is that of the library, not of the configuration. -/
theorem C98_qcd_propagator_t_w_field_config (ho : om ≠ 0) (hp : p ≠ 0) (hm : m ≠ 0) (k : Consts ℝ) (hk : k.nc ≠ 0) {mu : ℝ → ℝ} {v : ℝ}
    (hmu : Tendsto (fun T => mu T / T) atTop (𝓝 v)) (f0 : ℝ) (nc : ℕ) (quarks : List (ℕ × ℝ)) :
    Tendsto (fun T : ℝ => (T : ℂ) ^ 2 * qcd.thermal.gluon.propagator_t_landau_w_field_config .exact k om p T⁻¹ (mu T) f0 (FieldConfig.new nc m quarks)) atTop
      (𝓝 (((16 * Real.pi ^ 2 / 3 : ℝ) : ℂ) * (Spec.htl_t om p 1 +
        ((quarks.map fun q => q.1).sum : ℕ) / (2 * k.nc) * Spec.htl_t om p (1 + 3 * v ^ 2 / Real.pi ^ 2)))⁻¹) := by
  have h := hot_qcd_config_t ho hp k hk hmu f0 (FieldConfig.new nc m quarks) hm
  simpa only [FieldConfig.new, List.map_map, Function.comp_def, QuarkInternal.new] using h

-- the initial constants
example : (consts.init : Consts ℝ).matsubara_reg ≠ 0 := by
  simp only [consts.init, consts.FloatOps.lit]; norm_num

end Qcd
