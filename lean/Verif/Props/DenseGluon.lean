import Verif.Lemmas.HardDense
import Verif.Props.HotGluon

/-! # C99: gluons at high density

At a large chemical potential, at zero temperature or at a temperature that grows less than the chemical potential, the quark polarizations
divided by `μ²` tend to the hard-thermal-loop functions with `3μ²/π²` in the place of `T²`. The propagators times `μ²` tend to the inverse. -/

set_option linter.unusedSimpArgs false

namespace Qcd
open MeasureTheory Filter Topology Set
open consts (Consts Integral)

variable {om p m : ℝ}

/-- A fixed temperature grows less than the chemical potential. -/
theorem fixed_temperature {b : ℝ} (hb : 0 < b) : Tendsto (fun mu : ℝ => (fun _ : ℝ => b) mu * mu) atTop atTop := tendsto_id.const_mul_atTop hb

theorem dense_value_l (om p : ℝ) (nc : ℂ) : -2 * nc * (-(2 * nc)⁻¹ * (6 / Real.pi ^ 2) * Spec.htl_l om p 1 / 2) = nc * nc⁻¹ * Spec.htl_l om p (3 / Real.pi ^ 2) := by
  have hpi : (Real.pi : ℂ) ≠ 0 := Complex.ofReal_ne_zero.2 Real.pi_ne_zero
  simp only [Spec.htl_l]
  push_cast
  rw [mul_inv]
  field_simp
  ring

theorem dense_value_t (om p : ℝ) (nc : ℂ) : -2 * nc * (-(2 * nc)⁻¹ * (6 / Real.pi ^ 2) * Spec.htl_t om p 1 / 2) = nc * nc⁻¹ * Spec.htl_t om p (3 / Real.pi ^ 2) := by
  have hpi : (Real.pi : ℂ) ≠ 0 := Complex.ofReal_ne_zero.2 Real.pi_ne_zero
  simp only [Spec.htl_t, Spec.htl_l]
  push_cast
  rw [mul_inv]
  field_simp
  ring

theorem dense_value_zm  (nc : ℂ) : -2 * nc * (-(2 * nc)⁻¹ * (6 / Real.pi ^ 2) * Spec.htl_plasma 1 / 2) = nc * nc⁻¹ * Spec.htl_plasma (3 / Real.pi ^ 2) := by
  have hpi : (Real.pi : ℂ) ≠ 0 := Complex.ofReal_ne_zero.2 Real.pi_ne_zero
  simp only [Spec.htl_plasma]
  push_cast
  rw [mul_inv]
  field_simp
  ring

/-- **C99**: `gluon::thermal::polarization_quark_l_thermal_part_landau_w_method`. -/
theorem C99_quark_l (ho : om ≠ 0) (hp : p ≠ 0) (mq : ℝ) (k : Consts ℝ) (hk : k.nc ≠ 0) (integral : Integral ℝ) {beta : ℝ → ℝ}
    (hb : Tendsto (fun mu => beta mu * mu) atTop atTop) :
    Tendsto (fun mu : ℝ => -2 * (k.nc : ℂ) * gluon.thermal.polarization_quark_l_thermal_part_landau_w_method .exact k om p mq (beta mu) mu integral / (mu : ℂ) ^ 2)
      atTop (𝓝 (Spec.htl_l om p (3 / Real.pi ^ 2))) := by
  obtain ⟨H, hm, ⟨C, hC⟩, hlim, e, -⟩ := htl_kernel_l mq ho hp k hk
  have h := (dense_fermi mq hm hC hlim hb).const_mul (-2 * (k.nc : ℂ))
  rw [dense_value_l, mul_inv_cancel₀ (Nat.cast_ne_zero.2 hk), one_mul] at h
  simp only [C46_gluon_thermal_polarization_quark_l, e]
  exact h.congr fun mu => mul_div_assoc _ _ _ |>.symm

/-- **C99**: `gluon::thermal::polarization_quark_l_thermal_part_zero_temp_landau_w_method`. -/
theorem C99_quark_l_zero_temp (ho : om ≠ 0) (hp : p ≠ 0) (mq : ℝ) (k : Consts ℝ) (hk : k.nc ≠ 0) (integral : Integral ℝ) :
    Tendsto (fun mu : ℝ => -2 * (k.nc : ℂ) * gluon.thermal.polarization_quark_l_thermal_part_zero_temp_landau_w_method .exact k om p mq mu integral / (mu : ℂ) ^ 2)
      atTop (𝓝 (Spec.htl_l om p (3 / Real.pi ^ 2))) := by
  obtain ⟨H, hm, ⟨C, hC⟩, hlim, -, e⟩ := htl_kernel_l mq ho hp k hk
  have h := (dense_zero_temp mq hm hC hlim).const_mul (-2 * (k.nc : ℂ))
  rw [dense_value_l, mul_inv_cancel₀ (Nat.cast_ne_zero.2 hk), one_mul] at h
  simp only [C47_gluon_thermal_polarization_quark_l_zero_temp, e]
  exact h.congr fun mu => mul_div_assoc _ _ _ |>.symm

/-- **C99**: `gluon::thermal::zero_momentum::polarization_quark_l_thermal_part_landau_w_method`. -/
theorem C99_quark_l_zero_momentum (ho : om ≠ 0) (mq : ℝ) (k : Consts ℝ) (hk : k.nc ≠ 0) (integral : Integral ℝ) {beta : ℝ → ℝ}
    (hb : Tendsto (fun mu => beta mu * mu) atTop atTop) :
    Tendsto (fun mu : ℝ => -2 * (k.nc : ℂ) * gluon.thermal.zero_momentum.polarization_quark_l_thermal_part_landau_w_method .exact k om mq (beta mu) mu integral / (mu : ℂ) ^ 2)
      atTop (𝓝 (Spec.htl_plasma (3 / Real.pi ^ 2))) := by
  obtain ⟨H, hm, ⟨C, hC⟩, hlim, e, -⟩ := htl_kernel_zm mq ho k hk
  have h := (dense_fermi mq hm hC hlim hb).const_mul (-2 * (k.nc : ℂ))
  rw [dense_value_zm, mul_inv_cancel₀ (Nat.cast_ne_zero.2 hk), one_mul] at h
  simp only [C46_gluon_thermal_zero_momentum_polarization_quark_l, e]
  exact h.congr fun mu => mul_div_assoc _ _ _ |>.symm

/-- **C99**: `gluon::thermal::zero_momentum::polarization_quark_l_thermal_part_zero_temp_landau_w_method`. -/
theorem C99_quark_l_zero_momentum_zero_temp (ho : om ≠ 0) (mq : ℝ) (k : Consts ℝ) (hk : k.nc ≠ 0) (integral : Integral ℝ) :
    Tendsto (fun mu : ℝ => -2 * (k.nc : ℂ) * gluon.thermal.zero_momentum.polarization_quark_l_thermal_part_zero_temp_landau_w_method .exact k om mq mu integral / (mu : ℂ) ^ 2)
      atTop (𝓝 (Spec.htl_plasma (3 / Real.pi ^ 2))) := by
  obtain ⟨H, hm, ⟨C, hC⟩, hlim, -, e⟩ := htl_kernel_zm mq ho k hk
  have h := (dense_zero_temp mq hm hC hlim).const_mul (-2 * (k.nc : ℂ))
  rw [dense_value_zm, mul_inv_cancel₀ (Nat.cast_ne_zero.2 hk), one_mul] at h
  simp only [C47_gluon_thermal_zero_momentum_polarization_quark_l_zero_temp, e]
  exact h.congr fun mu => mul_div_assoc _ _ _ |>.symm

theorem dense_ne_l (ho : om ≠ 0) (hp : p ≠ 0) (k : Consts ℝ) (hk : k.nc ≠ 0) {nf : ℕ} (hf : nf ≠ 0) :
    (nf : ℂ) / (2 * k.nc) * Spec.htl_l om p (3 / Real.pi ^ 2) ≠ 0 := by
  have := Real.pi_pos
  obtain ⟨r, hr, e⟩ := C98_htl_l_pos ho hp (t2 := 3 / Real.pi ^ 2) (by positivity)
  rw [e]
  exact mul_ne_zero (div_ne_zero (Nat.cast_ne_zero.2 hf) (mul_ne_zero two_ne_zero (Nat.cast_ne_zero.2 hk))) (Complex.ofReal_ne_zero.2 hr.ne')

/-- **C99**: `qcd::thermal::gluon::propagator_l_landau` at a fixed temperature. -/
theorem C99_qcd_propagator_l (ho : om ≠ 0) (hp : p ≠ 0) (m mq : ℝ) (k : Consts ℝ) (hk : k.nc ≠ 0) (hf : k.nf ≠ 0) {beta : ℝ} (hb : 0 < beta) (f0 : ℝ) :
    Tendsto (fun mu : ℝ => (mu : ℂ) ^ 2 * qcd.thermal.gluon.propagator_l_landau .exact k om p m mq beta mu f0) atTop
      (𝓝 (((16 * Real.pi ^ 2 / 3 : ℝ) : ℂ) * (k.nf / (2 * k.nc) * Spec.htl_l om p (3 / Real.pi ^ 2)))⁻¹) := by
  have hk' : (k.nc : ℂ) ≠ 0 := Nat.cast_ne_zero.2 hk
  have h1 := (inv_sq_atTop.const_mul (gluon.thermal.polarization_glue_l_thermal_part_landau .exact k om p m beta)).add
    ((C99_quark_l ho hp mq k hk (consts.get_default_integration_method k) (fixed_temperature hb)).const_mul (-(k.nf : ℂ) / (2 * k.nc)))
  rw [mul_zero, zero_add, show -(k.nf : ℂ) / (2 * k.nc) * Spec.htl_l om p (3 / Real.pi ^ 2) = -(k.nf / (2 * k.nc) * Spec.htl_l om p (3 / Real.pi ^ 2)) by ring] at h1
  have h := hot_propagator (A := toC (qcd.gluon.dressing_inv_landau k ((om * om + p * p) / (m * m)) (mq / m) f0)) (sdim_ne ho p) PREFACTOR_ne
    (dense_ne_l ho hp k hk hf) (P := fun mu => gluon.thermal.polarization_glue_l_thermal_part_landau .exact k om p m beta +
      (k.nf : ℂ) * gluon.thermal.polarization_quark_l_thermal_part_landau .exact k om p mq beta mu) (h1.congr fun mu => by
        simp only [gluon.thermal.polarization_quark_l_thermal_part_landau]
        field_simp)
  rw [show PREFACTOR = 16 * Real.pi ^ 2 / 3 by rw [PREFACTOR]; ring] at h
  refine h.congr fun T => ?_
  simp only [qcd.thermal.gluon.propagator_l_landau, qcd.thermal.gluon.dressing_l_landau, qcd.thermal.gluon.dressing_l_inv_landau, toC_real, ofR_real, ofR_complex, PREFACTOR]
  push_cast
  ring_nf

/-- **C99**: `qcd::thermal::gluon::propagator_l_zero_temp_landau`. -/
theorem C99_qcd_propagator_l_zero_temp (ho : om ≠ 0) (hp : p ≠ 0) (m mq : ℝ) (k : Consts ℝ) (hk : k.nc ≠ 0) (hf : k.nf ≠ 0) (f0 : ℝ) :
    Tendsto (fun mu : ℝ => (mu : ℂ) ^ 2 * qcd.thermal.gluon.propagator_l_zero_temp_landau .exact k om p m mq mu f0) atTop
      (𝓝 (((16 * Real.pi ^ 2 / 3 : ℝ) : ℂ) * (k.nf / (2 * k.nc) * Spec.htl_l om p (3 / Real.pi ^ 2)))⁻¹) := by
  have hk' : (k.nc : ℂ) ≠ 0 := Nat.cast_ne_zero.2 hk
  have h1 := (C99_quark_l_zero_temp ho hp mq k hk (consts.get_default_integration_method k)).const_mul (-(k.nf : ℂ) / (2 * k.nc))
  rw [show -(k.nf : ℂ) / (2 * k.nc) * Spec.htl_l om p (3 / Real.pi ^ 2) = -(k.nf / (2 * k.nc) * Spec.htl_l om p (3 / Real.pi ^ 2)) by ring] at h1
  have h := hot_propagator (A := toC (qcd.gluon.dressing_inv_landau k ((om * om + p * p) / (m * m)) (mq / m) f0)) (sdim_ne ho p) PREFACTOR_ne
    (dense_ne_l ho hp k hk hf) (P := fun mu => (k.nf : ℂ) * gluon.thermal.polarization_quark_l_thermal_part_zero_temp_landau .exact k om p mq mu) (h1.congr fun mu => by
        simp only [gluon.thermal.polarization_quark_l_thermal_part_zero_temp_landau]
        field_simp)
  rw [show PREFACTOR = 16 * Real.pi ^ 2 / 3 by rw [PREFACTOR]; ring] at h
  refine h.congr fun T => ?_
  simp only [qcd.thermal.gluon.propagator_l_zero_temp_landau, qcd.thermal.gluon.dressing_l_zero_temp_landau, qcd.thermal.gluon.dressing_l_inv_zero_temp_landau, toC_real, ofR_real, ofR_complex, PREFACTOR]
  push_cast
  ring_nf

theorem dense_quarks_l (ho : om ≠ 0) (hp : p ≠ 0) (k : Consts ℝ) (hk : k.nc ≠ 0) {beta : ℝ} (hb : 0 < beta) (integral : Integral ℝ) (qs : List QuarkInternal) :
    Tendsto (fun mu : ℝ => (qs.map fun qi => gluon.thermal.polarization_quark_l_thermal_part_landau_w_method .exact k om p qi.mq beta mu integral * (qi.nf : ℂ)).sum /
      (mu : ℂ) ^ 2) atTop (𝓝 (-(((qs.map fun qi => qi.nf).sum : ℕ) / (2 * k.nc) * Spec.htl_l om p (3 / Real.pi ^ 2)))) := by
  have hk' : (k.nc : ℂ) ≠ 0 := Nat.cast_ne_zero.2 hk
  induction qs with
  | nil => simp
  | cons a qs ih =>
    have h := ((C99_quark_l ho hp a.mq k hk integral (fixed_temperature hb)).const_mul (-(a.nf : ℂ) / (2 * k.nc))).add ih
    simp only [List.map_cons, List.sum_cons]
    push_cast at h ⊢
    rw [show ∀ x y z : ℂ, -x / (2 * (k.nc : ℂ)) * y + -(z / (2 * k.nc) * y) = -((x + z) / (2 * k.nc) * y) by intros; ring] at h
    refine h.congr fun T => ?_
    field_simp

/-- **C99**: `qcd::thermal::gluon::propagator_l_landau_w_field_config` at a fixed temperature. -/
theorem C99_qcd_propagator_l_w_field_config (ho : om ≠ 0) (hp : p ≠ 0) (m : ℝ) (k : Consts ℝ) (hk : k.nc ≠ 0) {beta : ℝ} (hb : 0 < beta) (f0 : ℝ)
    (nc : ℕ) (quarks : List (ℕ × ℝ)) (hf : (quarks.map fun q => q.1).sum ≠ 0) :
    Tendsto (fun mu : ℝ => (mu : ℂ) ^ 2 * qcd.thermal.gluon.propagator_l_landau_w_field_config .exact k om p beta mu f0 (FieldConfig.new nc m quarks)) atTop
      (𝓝 (((16 * Real.pi ^ 2 / 3 : ℝ) : ℂ) * (((quarks.map fun q => q.1).sum : ℕ) / (2 * k.nc) * Spec.htl_l om p (3 / Real.pi ^ 2)))⁻¹) := by
  set config := FieldConfig.new nc m quarks with hconf
  have hq : (config.quarks_internal.map fun qi => qi.nf).sum = (quarks.map fun q => q.1).sum := by
    simp only [hconf, FieldConfig.new, List.map_map, Function.comp_def, QuarkInternal.new]
  have h0 := (inv_sq_atTop.const_mul (gluon.thermal.polarization_glue_l_thermal_part_landau .exact k om p config.gluon beta)).add
    (dense_quarks_l ho hp k hk hb (consts.get_default_integration_method k) config.quarks_internal)
  rw [mul_zero, zero_add, hq] at h0
  simp only [← div_eq_mul_inv, ← add_div] at h0
  have h := hot_propagator (A := qcd.gluon.dressing_inv_landau_w_field_config k ((((om * om : ℝ) : ℂ) + ((p * p : ℝ) : ℂ)) / ((config.gluon * config.gluon : ℝ) : ℂ)) f0 config) (sdim_ne ho p) PREFACTOR_ne (dense_ne_l ho hp k hk hf) h0
  rw [show PREFACTOR = 16 * Real.pi ^ 2 / 3 by rw [PREFACTOR]; ring] at h
  refine h.congr fun T => ?_
  simp only [qcd.thermal.gluon.propagator_l_landau_w_field_config, qcd.thermal.gluon.dressing_l_landau_w_field_config,
    qcd.thermal.gluon.dressing_l_inv_landau_w_field_config,
    gluon.thermal.polarization_quark_l_thermal_part_landau, toC_real, toC_complex, ofR_real, ofR_complex, PREFACTOR]
  push_cast
  ring_nf

/-- **C99**: `gluon::thermal::polarization_quark_t_thermal_part_landau_w_method`. -/
theorem C99_quark_t (ho : om ≠ 0) (hp : p ≠ 0) (mq : ℝ) (k : Consts ℝ) (hk : k.nc ≠ 0) (integral : Integral ℝ) {beta : ℝ → ℝ}
    (hb : Tendsto (fun mu => beta mu * mu) atTop atTop) :
    Tendsto (fun mu : ℝ => -2 * (k.nc : ℂ) * gluon.thermal.polarization_quark_t_thermal_part_landau_w_method .exact k om p mq (beta mu) mu integral / (mu : ℂ) ^ 2)
      atTop (𝓝 (Spec.htl_t om p (3 / Real.pi ^ 2))) := by
  obtain ⟨H, hm, ⟨C, hC⟩, hlim, e, -⟩ := htl_kernel_t mq ho hp k hk
  have h := (dense_fermi mq hm hC hlim hb).const_mul (-2 * (k.nc : ℂ))
  rw [dense_value_t, mul_inv_cancel₀ (Nat.cast_ne_zero.2 hk), one_mul] at h
  simp only [C46_gluon_thermal_polarization_quark_t, e]
  exact h.congr fun mu => mul_div_assoc _ _ _ |>.symm

/-- **C99**: `gluon::thermal::polarization_quark_t_thermal_part_zero_temp_landau_w_method`. -/
theorem C99_quark_t_zero_temp (ho : om ≠ 0) (hp : p ≠ 0) (mq : ℝ) (k : Consts ℝ) (hk : k.nc ≠ 0) (integral : Integral ℝ) :
    Tendsto (fun mu : ℝ => -2 * (k.nc : ℂ) * gluon.thermal.polarization_quark_t_thermal_part_zero_temp_landau_w_method .exact k om p mq mu integral / (mu : ℂ) ^ 2)
      atTop (𝓝 (Spec.htl_t om p (3 / Real.pi ^ 2))) := by
  obtain ⟨H, hm, ⟨C, hC⟩, hlim, -, e⟩ := htl_kernel_t mq ho hp k hk
  have h := (dense_zero_temp mq hm hC hlim).const_mul (-2 * (k.nc : ℂ))
  rw [dense_value_t, mul_inv_cancel₀ (Nat.cast_ne_zero.2 hk), one_mul] at h
  simp only [C47_gluon_thermal_polarization_quark_t_zero_temp, e]
  exact h.congr fun mu => mul_div_assoc _ _ _ |>.symm

/-- **C99**: `gluon::thermal::zero_momentum::polarization_quark_t_thermal_part_landau_w_method`. -/
theorem C99_quark_t_zero_momentum (ho : om ≠ 0) (mq : ℝ) (k : Consts ℝ) (hk : k.nc ≠ 0) (integral : Integral ℝ) {beta : ℝ → ℝ}
    (hb : Tendsto (fun mu => beta mu * mu) atTop atTop) :
    Tendsto (fun mu : ℝ => -2 * (k.nc : ℂ) * gluon.thermal.zero_momentum.polarization_quark_t_thermal_part_landau_w_method .exact k om mq (beta mu) mu integral / (mu : ℂ) ^ 2)
      atTop (𝓝 (Spec.htl_plasma (3 / Real.pi ^ 2))) := by
  obtain ⟨H, hm, ⟨C, hC⟩, hlim, e, -⟩ := htl_kernel_zm mq ho k hk
  have h := (dense_fermi mq hm hC hlim hb).const_mul (-2 * (k.nc : ℂ))
  rw [dense_value_zm, mul_inv_cancel₀ (Nat.cast_ne_zero.2 hk), one_mul] at h
  simp only [C46_gluon_thermal_zero_momentum_polarization_quark_t, gluon.thermal.zero_momentum.polarization_quark_t_thermal_part_landau_i, e]
  exact h.congr fun mu => mul_div_assoc _ _ _ |>.symm

/-- **C99**: `gluon::thermal::zero_momentum::polarization_quark_t_thermal_part_zero_temp_landau_w_method`. -/
theorem C99_quark_t_zero_momentum_zero_temp (ho : om ≠ 0) (mq : ℝ) (k : Consts ℝ) (hk : k.nc ≠ 0) (integral : Integral ℝ) :
    Tendsto (fun mu : ℝ => -2 * (k.nc : ℂ) * gluon.thermal.zero_momentum.polarization_quark_t_thermal_part_zero_temp_landau_w_method .exact k om mq mu integral / (mu : ℂ) ^ 2)
      atTop (𝓝 (Spec.htl_plasma (3 / Real.pi ^ 2))) := by
  obtain ⟨H, hm, ⟨C, hC⟩, hlim, -, e⟩ := htl_kernel_zm mq ho k hk
  have h := (dense_zero_temp mq hm hC hlim).const_mul (-2 * (k.nc : ℂ))
  rw [dense_value_zm, mul_inv_cancel₀ (Nat.cast_ne_zero.2 hk), one_mul] at h
  simp only [C47_gluon_thermal_zero_momentum_polarization_quark_t_zero_temp, gluon.thermal.zero_momentum.polarization_quark_t_thermal_part_zero_temp_landau_i, e]
  exact h.congr fun mu => mul_div_assoc _ _ _ |>.symm

theorem dense_ne_t (ho : om ≠ 0) (hp : p ≠ 0) (k : Consts ℝ) (hk : k.nc ≠ 0) {nf : ℕ} (hf : nf ≠ 0) :
    (nf : ℂ) / (2 * k.nc) * Spec.htl_t om p (3 / Real.pi ^ 2) ≠ 0 := by
  have := Real.pi_pos
  obtain ⟨r, hr, e⟩ := C98_htl_t_pos ho hp (t2 := 3 / Real.pi ^ 2) (by positivity)
  rw [e]
  exact mul_ne_zero (div_ne_zero (Nat.cast_ne_zero.2 hf) (mul_ne_zero two_ne_zero (Nat.cast_ne_zero.2 hk))) (Complex.ofReal_ne_zero.2 hr.ne')

/-- **C99**: `qcd::thermal::gluon::propagator_t_landau` at a fixed temperature. -/
theorem C99_qcd_propagator_t (ho : om ≠ 0) (hp : p ≠ 0) (m mq : ℝ) (k : Consts ℝ) (hk : k.nc ≠ 0) (hf : k.nf ≠ 0) {beta : ℝ} (hb : 0 < beta) (f0 : ℝ) :
    Tendsto (fun mu : ℝ => (mu : ℂ) ^ 2 * qcd.thermal.gluon.propagator_t_landau .exact k om p m mq beta mu f0) atTop
      (𝓝 (((16 * Real.pi ^ 2 / 3 : ℝ) : ℂ) * (k.nf / (2 * k.nc) * Spec.htl_t om p (3 / Real.pi ^ 2)))⁻¹) := by
  have hk' : (k.nc : ℂ) ≠ 0 := Nat.cast_ne_zero.2 hk
  have h1 := (inv_sq_atTop.const_mul (gluon.thermal.polarization_glue_t_thermal_part_landau .exact k om p m beta)).add
    ((C99_quark_t ho hp mq k hk (consts.get_default_integration_method k) (fixed_temperature hb)).const_mul (-(k.nf : ℂ) / (2 * k.nc)))
  rw [mul_zero, zero_add, show -(k.nf : ℂ) / (2 * k.nc) * Spec.htl_t om p (3 / Real.pi ^ 2) = -(k.nf / (2 * k.nc) * Spec.htl_t om p (3 / Real.pi ^ 2)) by ring] at h1
  have h := hot_propagator (A := toC (qcd.gluon.dressing_inv_landau k ((om * om + p * p) / (m * m)) (mq / m) f0)) (sdim_ne ho p) PREFACTOR_ne
    (dense_ne_t ho hp k hk hf) (P := fun mu => gluon.thermal.polarization_glue_t_thermal_part_landau .exact k om p m beta +
      (k.nf : ℂ) * gluon.thermal.polarization_quark_t_thermal_part_landau .exact k om p mq beta mu) (h1.congr fun mu => by
        simp only [gluon.thermal.polarization_quark_t_thermal_part_landau]
        field_simp)
  rw [show PREFACTOR = 16 * Real.pi ^ 2 / 3 by rw [PREFACTOR]; ring] at h
  refine h.congr fun T => ?_
  simp only [qcd.thermal.gluon.propagator_t_landau, qcd.thermal.gluon.dressing_t_landau, qcd.thermal.gluon.dressing_t_inv_landau, toC_real, ofR_real, ofR_complex, PREFACTOR]
  push_cast
  ring_nf

/-- **C99**: `qcd::thermal::gluon::propagator_t_zero_temp_landau`. -/
theorem C99_qcd_propagator_t_zero_temp (ho : om ≠ 0) (hp : p ≠ 0) (m mq : ℝ) (k : Consts ℝ) (hk : k.nc ≠ 0) (hf : k.nf ≠ 0) (f0 : ℝ) :
    Tendsto (fun mu : ℝ => (mu : ℂ) ^ 2 * qcd.thermal.gluon.propagator_t_zero_temp_landau .exact k om p m mq mu f0) atTop
      (𝓝 (((16 * Real.pi ^ 2 / 3 : ℝ) : ℂ) * (k.nf / (2 * k.nc) * Spec.htl_t om p (3 / Real.pi ^ 2)))⁻¹) := by
  have hk' : (k.nc : ℂ) ≠ 0 := Nat.cast_ne_zero.2 hk
  have h1 := (C99_quark_t_zero_temp ho hp mq k hk (consts.get_default_integration_method k)).const_mul (-(k.nf : ℂ) / (2 * k.nc))
  rw [show -(k.nf : ℂ) / (2 * k.nc) * Spec.htl_t om p (3 / Real.pi ^ 2) = -(k.nf / (2 * k.nc) * Spec.htl_t om p (3 / Real.pi ^ 2)) by ring] at h1
  have h := hot_propagator (A := toC (qcd.gluon.dressing_inv_landau k ((om * om + p * p) / (m * m)) (mq / m) f0)) (sdim_ne ho p) PREFACTOR_ne
    (dense_ne_t ho hp k hk hf) (P := fun mu => (k.nf : ℂ) * gluon.thermal.polarization_quark_t_thermal_part_zero_temp_landau .exact k om p mq mu) (h1.congr fun mu => by
        simp only [gluon.thermal.polarization_quark_t_thermal_part_zero_temp_landau]
        field_simp)
  rw [show PREFACTOR = 16 * Real.pi ^ 2 / 3 by rw [PREFACTOR]; ring] at h
  refine h.congr fun T => ?_
  simp only [qcd.thermal.gluon.propagator_t_zero_temp_landau, qcd.thermal.gluon.dressing_t_zero_temp_landau, qcd.thermal.gluon.dressing_t_inv_zero_temp_landau, toC_real, ofR_real, ofR_complex, PREFACTOR]
  push_cast
  ring_nf

theorem dense_quarks_t (ho : om ≠ 0) (hp : p ≠ 0) (k : Consts ℝ) (hk : k.nc ≠ 0) {beta : ℝ} (hb : 0 < beta) (integral : Integral ℝ) (qs : List QuarkInternal) :
    Tendsto (fun mu : ℝ => (qs.map fun qi => gluon.thermal.polarization_quark_t_thermal_part_landau_w_method .exact k om p qi.mq beta mu integral * (qi.nf : ℂ)).sum /
      (mu : ℂ) ^ 2) atTop (𝓝 (-(((qs.map fun qi => qi.nf).sum : ℕ) / (2 * k.nc) * Spec.htl_t om p (3 / Real.pi ^ 2)))) := by
  have hk' : (k.nc : ℂ) ≠ 0 := Nat.cast_ne_zero.2 hk
  induction qs with
  | nil => simp
  | cons a qs ih =>
    have h := ((C99_quark_t ho hp a.mq k hk integral (fixed_temperature hb)).const_mul (-(a.nf : ℂ) / (2 * k.nc))).add ih
    simp only [List.map_cons, List.sum_cons]
    push_cast at h ⊢
    rw [show ∀ x y z : ℂ, -x / (2 * (k.nc : ℂ)) * y + -(z / (2 * k.nc) * y) = -((x + z) / (2 * k.nc) * y) by intros; ring] at h
    refine h.congr fun T => ?_
    field_simp

/-- **C99**: `qcd::thermal::gluon::propagator_t_landau_w_field_config` at a fixed temperature. -/
theorem C99_qcd_propagator_t_w_field_config (ho : om ≠ 0) (hp : p ≠ 0) (m : ℝ) (k : Consts ℝ) (hk : k.nc ≠ 0) {beta : ℝ} (hb : 0 < beta) (f0 : ℝ)
    (nc : ℕ) (quarks : List (ℕ × ℝ)) (hf : (quarks.map fun q => q.1).sum ≠ 0) :
    Tendsto (fun mu : ℝ => (mu : ℂ) ^ 2 * qcd.thermal.gluon.propagator_t_landau_w_field_config .exact k om p beta mu f0 (FieldConfig.new nc m quarks)) atTop
      (𝓝 (((16 * Real.pi ^ 2 / 3 : ℝ) : ℂ) * (((quarks.map fun q => q.1).sum : ℕ) / (2 * k.nc) * Spec.htl_t om p (3 / Real.pi ^ 2)))⁻¹) := by
  set config := FieldConfig.new nc m quarks with hconf
  have hq : (config.quarks_internal.map fun qi => qi.nf).sum = (quarks.map fun q => q.1).sum := by
    simp only [hconf, FieldConfig.new, List.map_map, Function.comp_def, QuarkInternal.new]
  have h0 := (inv_sq_atTop.const_mul (gluon.thermal.polarization_glue_t_thermal_part_landau .exact k om p config.gluon beta)).add
    (dense_quarks_t ho hp k hk hb (consts.get_default_integration_method k) config.quarks_internal)
  rw [mul_zero, zero_add, hq] at h0
  simp only [← div_eq_mul_inv, ← add_div] at h0
  have h := hot_propagator (A := toC (qcd.gluon.dressing_inv_landau_w_field_config k ((om * om + p * p) / (config.gluon * config.gluon)) f0 config)) (sdim_ne ho p) PREFACTOR_ne (dense_ne_t ho hp k hk hf) h0
  rw [show PREFACTOR = 16 * Real.pi ^ 2 / 3 by rw [PREFACTOR]; ring] at h
  refine h.congr fun T => ?_
  simp only [qcd.thermal.gluon.propagator_t_landau_w_field_config, qcd.thermal.gluon.dressing_t_landau_w_field_config,
    qcd.thermal.gluon.dressing_t_inv_landau_w_field_config,
    gluon.thermal.polarization_quark_t_thermal_part_landau, toC_real, toC_complex, ofR_real, ofR_complex, PREFACTOR]
  push_cast
  ring_nf

-- a temperature that grows less than the chemical potential; the initial constants have one flavour
example : Tendsto (fun mu : ℝ => (Real.sqrt mu)⁻¹ * mu) atTop atTop := by
  refine Real.tendsto_sqrt_atTop.congr' ?_
  filter_upwards [eventually_gt_atTop 0] with mu hmu
  have := Real.sqrt_pos.2 hmu
  rw [eq_inv_mul_iff_mul_eq₀ this.ne', Real.mul_self_sqrt hmu.le]

example : (consts.init : Consts ℝ).nf ≠ 0 ∧ (consts.init : Consts ℝ).nc ≠ 0 := by simp [consts.init]

example : ([(2, 0.35), (1, 0.5)].map fun q : ℕ × ℝ => q.1).sum ≠ 0 := by simp

end Qcd
