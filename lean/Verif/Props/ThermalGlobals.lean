import Verif.Spec.ThermalDressing
import Verif.Props.Distributions
import Verif.Lemmas.ChargeDensity
import Mathlib.MeasureTheory.Integral.IntervalIntegral.FundThmCalculus

/-! # C31: the thermal field-configuration functions read the global number of colours

Generated by a script. -/

set_option linter.unusedSimpArgs false
set_option linter.unusedSectionVars false
set_option linter.unusedVariables false

namespace Qcd
open consts (Consts Integral get_default_integration_method)
open MeasureTheory Set
variable {T T1 T2 : Type} [Num T] [Num T1] [Num T2]

/-- Scaling the integrand by a real number scales the result. -/
structure Integrator.Homogeneous (ig : Integrator) : Prop where
  real : ∀ (c : ℝ) f r m, ig.real (fun x => c * f x) r m = c * ig.real f r m
  cplx : ∀ (c : ℝ) f r m, ig.cplx (fun x => (c : ℂ) * f x) r m = (c : ℂ) * ig.cplx f r m

theorem Integrator.exact_homogeneous : Integrator.exact.Homogeneous where
  real c f r m := by simp only [Integrator.exact, intervalIntegral.integral_const_mul]
  cplx c f r m := by simp only [Integrator.exact, intervalIntegral.integral_const_mul]

/-- The state after changing only the number of colours. -/
def withColours (k : Consts ℝ) (n : ℕ) : Consts ℝ := { k with nc := n }

theorem sum_scale {F : Type} [Field F] (A A' : ℝ → F) (c : ℕ → F) (x : F) (h : ∀ mq, A mq = A' mq * x)
    (l : List QuarkInternal) :
    (l.map (fun qi => A qi.mq * c qi.nf)).sum = (l.map (fun qi => A' qi.mq * c qi.nf)).sum * x := by
  induction l with
  | nil => simp
  | cons a l ih => rw [List.map_cons, List.sum_cons, List.map_cons, List.sum_cons, ih, h]; ring

/-! ### qcd::thermal::gluon -/

/-- **C31** (`qcd::thermal::gluon`): apart from the configuration the results depend on the number of colours, the
integration defaults and the Matsubara regulator only: not on the number of fermions, its ratio to the number of
colours, or the default quark mass. -/
theorem C31_reads_only_general (ig : Integrator) (k k' : Consts ℝ) (h1 : k.nc = k'.nc)
    (h2 : k.tol_integral = k'.tol_integral) (h3 : k.max_iter_integral = k'.max_iter_integral)
    (h4 : k.matsubara_reg = k'.matsubara_reg) (om : T) (p : ℝ) (beta mu f0 : ℝ) (c : FieldConfig) :
    qcd.thermal.gluon.configValues ig k om p beta mu f0 c = qcd.thermal.gluon.configValues ig k' om p beta mu f0 c ∧
    qcd.thermal.gluon.configZeroTempValues ig k om p mu f0 c = qcd.thermal.gluon.configZeroTempValues ig k' om p mu f0 c := by
  obtain ⟨nc, nf, r, mq, tol, it, reg⟩ := k
  obtain ⟨nc', nf', r', mq', tol', it', reg'⟩ := k'
  simp only at h1 h2 h3 h4
  subst h1 h2 h3 h4
  exact ⟨rfl, rfl⟩

theorem nc_general_l_i (k : Consts ℝ) (n : ℕ) (q : ℝ) (om : T) (p : ℝ) (mq beta mu : ℝ) :
    (gluon.thermal.polarization_quark_l_thermal_part_landau_i (withColours k n) q om p mq beta mu) = (((n : ℝ)⁻¹ : ℝ) : ℂ) * (gluon.thermal.polarization_quark_l_thermal_part_landau_i (withColours k 1) q om p mq beta mu) := by
  simp only [gluon.thermal.polarization_quark_l_thermal_part_landau_i, withColours, toC_complex, toC_real, toC_ofR, ofR_real, ofR_complex, map_add, map_sub, map_neg, map_mul, map_inv₀, map_div₀, Nat.cast_one, mul_one, mul_inv, neg_mul, Complex.ofReal_mul, Complex.ofReal_inv, Complex.ofReal_div, Complex.ofReal_neg, Complex.ofReal_natCast, div_eq_mul_inv, Complex.ofReal_one]
  ring

theorem nc_general_l (ig : Integrator) (hg : ig.Homogeneous) (k : Consts ℝ) (n : ℕ) (om : T) (p : ℝ) (mq beta mu : ℝ) :
    gluon.thermal.polarization_quark_l_thermal_part_landau ig (withColours k n) om p mq beta mu = gluon.thermal.polarization_quark_l_thermal_part_landau ig (withColours k 1) om p mq beta mu * (((n : ℝ)⁻¹ : ℝ) : ℂ) := by
  have h := fun q => nc_general_l_i k n q om p mq beta mu
  simp only [gluon.thermal.polarization_quark_l_thermal_part_landau, gluon.thermal.polarization_quark_l_thermal_part_landau_w_method, withColours, get_default_integration_method]
  simp only [withColours] at h
  simp only [h, mul_div_assoc, hg.cplx]
  ring

theorem nc_general_l_zt_i (k : Consts ℝ) (n : ℕ) (q : ℝ) (om : T) (p : ℝ) (mq mu : ℝ) :
    (gluon.thermal.polarization_quark_l_thermal_part_zero_temp_landau_i (withColours k n) q om p mq mu) = (((n : ℝ)⁻¹ : ℝ) : ℂ) * (gluon.thermal.polarization_quark_l_thermal_part_zero_temp_landau_i (withColours k 1) q om p mq mu) := by
  simp only [gluon.thermal.polarization_quark_l_thermal_part_zero_temp_landau_i, withColours, toC_complex, toC_real, toC_ofR, ofR_real, ofR_complex, map_add, map_sub, map_neg, map_mul, map_inv₀, map_div₀, Nat.cast_one, mul_one, mul_inv, neg_mul, Complex.ofReal_mul, Complex.ofReal_inv, Complex.ofReal_div, Complex.ofReal_neg, Complex.ofReal_natCast, div_eq_mul_inv, Complex.ofReal_one]
  ring

theorem nc_general_l_zt (ig : Integrator) (hg : ig.Homogeneous) (k : Consts ℝ) (n : ℕ) (om : T) (p : ℝ) (mq mu : ℝ) :
    gluon.thermal.polarization_quark_l_thermal_part_zero_temp_landau ig (withColours k n) om p mq mu = gluon.thermal.polarization_quark_l_thermal_part_zero_temp_landau ig (withColours k 1) om p mq mu * (((n : ℝ)⁻¹ : ℝ) : ℂ) := by
  have h := fun q => nc_general_l_zt_i k n q om p mq mu
  simp only [gluon.thermal.polarization_quark_l_thermal_part_zero_temp_landau, gluon.thermal.polarization_quark_l_thermal_part_zero_temp_landau_w_method, withColours, get_default_integration_method]
  simp only [withColours] at h
  split_ifs
  · rw [zero_mul]
  · simp only [h, hg.cplx]
    ring

theorem nc_general_t_i (k : Consts ℝ) (n : ℕ) (q : ℝ) (om : T) (p : ℝ) (mq beta mu : ℝ) :
    (gluon.thermal.polarization_quark_t_thermal_part_landau_i (withColours k n) q om p mq beta mu) = (((n : ℝ)⁻¹ : ℝ) : ℂ) * (gluon.thermal.polarization_quark_t_thermal_part_landau_i (withColours k 1) q om p mq beta mu) := by
  simp only [gluon.thermal.polarization_quark_t_thermal_part_landau_i, withColours, toC_complex, toC_real, toC_ofR, ofR_real, ofR_complex, map_add, map_sub, map_neg, map_mul, map_inv₀, map_div₀, Nat.cast_one, mul_one, mul_inv, neg_mul, Complex.ofReal_mul, Complex.ofReal_inv, Complex.ofReal_div, Complex.ofReal_neg, Complex.ofReal_natCast, div_eq_mul_inv, Complex.ofReal_one]
  ring

theorem nc_general_t (ig : Integrator) (hg : ig.Homogeneous) (k : Consts ℝ) (n : ℕ) (om : T) (p : ℝ) (mq beta mu : ℝ) :
    gluon.thermal.polarization_quark_t_thermal_part_landau ig (withColours k n) om p mq beta mu = gluon.thermal.polarization_quark_t_thermal_part_landau ig (withColours k 1) om p mq beta mu * (((n : ℝ)⁻¹ : ℝ) : ℂ) := by
  have h := fun q => nc_general_t_i k n q om p mq beta mu
  simp only [gluon.thermal.polarization_quark_t_thermal_part_landau, gluon.thermal.polarization_quark_t_thermal_part_landau_w_method, withColours, get_default_integration_method]
  simp only [withColours] at h
  simp only [h, mul_div_assoc, hg.cplx]
  ring

theorem nc_general_t_zt_i (k : Consts ℝ) (n : ℕ) (q : ℝ) (om : T) (p : ℝ) (mq mu : ℝ) :
    (gluon.thermal.polarization_quark_t_thermal_part_zero_temp_landau_i (withColours k n) q om p mq mu) = (((n : ℝ)⁻¹ : ℝ) : ℂ) * (gluon.thermal.polarization_quark_t_thermal_part_zero_temp_landau_i (withColours k 1) q om p mq mu) := by
  simp only [gluon.thermal.polarization_quark_t_thermal_part_zero_temp_landau_i, withColours, toC_complex, toC_real, toC_ofR, ofR_real, ofR_complex, map_add, map_sub, map_neg, map_mul, map_inv₀, map_div₀, Nat.cast_one, mul_one, mul_inv, neg_mul, Complex.ofReal_mul, Complex.ofReal_inv, Complex.ofReal_div, Complex.ofReal_neg, Complex.ofReal_natCast, div_eq_mul_inv, Complex.ofReal_one]
  ring

theorem nc_general_t_zt (ig : Integrator) (hg : ig.Homogeneous) (k : Consts ℝ) (n : ℕ) (om : T) (p : ℝ) (mq mu : ℝ) :
    gluon.thermal.polarization_quark_t_thermal_part_zero_temp_landau ig (withColours k n) om p mq mu = gluon.thermal.polarization_quark_t_thermal_part_zero_temp_landau ig (withColours k 1) om p mq mu * (((n : ℝ)⁻¹ : ℝ) : ℂ) := by
  have h := fun q => nc_general_t_zt_i k n q om p mq mu
  simp only [gluon.thermal.polarization_quark_t_thermal_part_zero_temp_landau, gluon.thermal.polarization_quark_t_thermal_part_zero_temp_landau_w_method, withColours, get_default_integration_method]
  simp only [withColours] at h
  split_ifs
  · rw [zero_mul]
  · simp only [h, hg.cplx]
    ring

/-- **C31** (`qcd::thermal::gluon`): for a homogeneous integrator and a fixed configuration, each inverse dressing
is `B + Q / nc` as a function of the global number of colours. -/
theorem C31_scaling_general (ig : Integrator) (hg : ig.Homogeneous) (k : Consts ℝ) (om : T) (p : ℝ) (beta mu f0 : ℝ)
    (c : FieldConfig) :
    (∃ B Q : ℂ, ∀ n : ℕ, qcd.thermal.gluon.dressing_l_inv_landau_w_field_config ig (withColours k n) om p beta mu f0 c = B + Q / (n : ℂ)) ∧
    (∃ B Q : ℂ, ∀ n : ℕ, qcd.thermal.gluon.dressing_l_inv_zero_temp_landau_w_field_config ig (withColours k n) om p mu f0 c = B + Q / (n : ℂ)) ∧
    (∃ B Q : ℂ, ∀ n : ℕ, qcd.thermal.gluon.dressing_t_inv_landau_w_field_config ig (withColours k n) om p beta mu f0 c = B + Q / (n : ℂ)) ∧
    (∃ B Q : ℂ, ∀ n : ℕ, qcd.thermal.gluon.dressing_t_inv_zero_temp_landau_w_field_config ig (withColours k n) om p mu f0 c = B + Q / (n : ℂ)) := by
  refine ⟨?_, ?_, ?_, ?_⟩
  · refine ⟨qcd.thermal.gluon.dressing_l_inv_landau_w_field_config ig (withColours k 1) om p beta mu f0 c + ((toC (om * om) + toC (p * p))⁻¹ * (ofR PREFACTOR : ℂ)) * (c.quarks_internal.map (fun qi => gluon.thermal.polarization_quark_l_thermal_part_landau ig (withColours k 1) om p qi.mq beta mu * (ofR (qi.nf : ℝ) : ℂ))).sum, -(((toC (om * om) + toC (p * p))⁻¹ * (ofR PREFACTOR : ℂ)) * (c.quarks_internal.map (fun qi => gluon.thermal.polarization_quark_l_thermal_part_landau ig (withColours k 1) om p qi.mq beta mu * (ofR (qi.nf : ℝ) : ℂ))).sum), fun n => ?_⟩
    have hs := sum_scale (fun mq => gluon.thermal.polarization_quark_l_thermal_part_landau ig (withColours k n) om p mq beta mu) (fun mq => gluon.thermal.polarization_quark_l_thermal_part_landau ig (withColours k 1) om p mq beta mu) (fun n => (ofR (n : ℝ) : ℂ)) (((n : ℝ)⁻¹ : ℝ) : ℂ) (fun mq => nc_general_l ig hg k n om p mq beta mu) c.quarks_internal
    have hv : ∀ s : ℂ, qcd.gluon.dressing_inv_landau_w_field_config (withColours k n) s f0 c = qcd.gluon.dressing_inv_landau_w_field_config (withColours k 1) s f0 c := fun _ => rfl
    have hgl : gluon.thermal.polarization_glue_l_thermal_part_landau ig (withColours k n) om p c.gluon beta = gluon.thermal.polarization_glue_l_thermal_part_landau ig (withColours k 1) om p c.gluon beta := rfl
    simp only [qcd.thermal.gluon.dressing_l_inv_landau_w_field_config, hs, hv, hgl]
    push_cast
    ring
  · refine ⟨qcd.thermal.gluon.dressing_l_inv_zero_temp_landau_w_field_config ig (withColours k 1) om p mu f0 c + ((toC (om * om) + toC (p * p))⁻¹ * (ofR PREFACTOR : ℂ)) * (c.quarks_internal.map (fun qi => gluon.thermal.polarization_quark_l_thermal_part_zero_temp_landau ig (withColours k 1) om p qi.mq mu * (ofR (qi.nf : ℝ) : ℂ))).sum, -(((toC (om * om) + toC (p * p))⁻¹ * (ofR PREFACTOR : ℂ)) * (c.quarks_internal.map (fun qi => gluon.thermal.polarization_quark_l_thermal_part_zero_temp_landau ig (withColours k 1) om p qi.mq mu * (ofR (qi.nf : ℝ) : ℂ))).sum), fun n => ?_⟩
    have hs := sum_scale (fun mq => gluon.thermal.polarization_quark_l_thermal_part_zero_temp_landau ig (withColours k n) om p mq mu) (fun mq => gluon.thermal.polarization_quark_l_thermal_part_zero_temp_landau ig (withColours k 1) om p mq mu) (fun n => (ofR (n : ℝ) : ℂ)) (((n : ℝ)⁻¹ : ℝ) : ℂ) (fun mq => nc_general_l_zt ig hg k n om p mq mu) c.quarks_internal
    have hv : ∀ s : ℂ, qcd.gluon.dressing_inv_landau_w_field_config (withColours k n) s f0 c = qcd.gluon.dressing_inv_landau_w_field_config (withColours k 1) s f0 c := fun _ => rfl
    have hgl : gluon.thermal.polarization_glue_l_thermal_part_landau ig (withColours k n) om p c.gluon beta = gluon.thermal.polarization_glue_l_thermal_part_landau ig (withColours k 1) om p c.gluon beta := rfl
    simp only [qcd.thermal.gluon.dressing_l_inv_zero_temp_landau_w_field_config, hs, hv, hgl]
    push_cast
    ring
  · refine ⟨qcd.thermal.gluon.dressing_t_inv_landau_w_field_config ig (withColours k 1) om p beta mu f0 c + (toC ((om * om + (ofR (p * p) : T))⁻¹ * (ofR PREFACTOR : T))) * (c.quarks_internal.map (fun qi => gluon.thermal.polarization_quark_t_thermal_part_landau ig (withColours k 1) om p qi.mq beta mu * (ofR (qi.nf : ℝ) : ℂ))).sum, -((toC ((om * om + (ofR (p * p) : T))⁻¹ * (ofR PREFACTOR : T))) * (c.quarks_internal.map (fun qi => gluon.thermal.polarization_quark_t_thermal_part_landau ig (withColours k 1) om p qi.mq beta mu * (ofR (qi.nf : ℝ) : ℂ))).sum), fun n => ?_⟩
    have hs := sum_scale (fun mq => gluon.thermal.polarization_quark_t_thermal_part_landau ig (withColours k n) om p mq beta mu) (fun mq => gluon.thermal.polarization_quark_t_thermal_part_landau ig (withColours k 1) om p mq beta mu) (fun n => (ofR (n : ℝ) : ℂ)) (((n : ℝ)⁻¹ : ℝ) : ℂ) (fun mq => nc_general_t ig hg k n om p mq beta mu) c.quarks_internal
    have hv : ∀ s : T, qcd.gluon.dressing_inv_landau_w_field_config (withColours k n) s f0 c = qcd.gluon.dressing_inv_landau_w_field_config (withColours k 1) s f0 c := fun _ => rfl
    have hgl : gluon.thermal.polarization_glue_t_thermal_part_landau ig (withColours k n) om p c.gluon beta = gluon.thermal.polarization_glue_t_thermal_part_landau ig (withColours k 1) om p c.gluon beta := rfl
    simp only [qcd.thermal.gluon.dressing_t_inv_landau_w_field_config, hs, hv, hgl]
    push_cast
    ring
  · refine ⟨qcd.thermal.gluon.dressing_t_inv_zero_temp_landau_w_field_config ig (withColours k 1) om p mu f0 c + (toC ((om * om + (ofR (p * p) : T))⁻¹ * (ofR PREFACTOR : T))) * (c.quarks_internal.map (fun qi => gluon.thermal.polarization_quark_t_thermal_part_zero_temp_landau ig (withColours k 1) om p qi.mq mu * (ofR (qi.nf : ℝ) : ℂ))).sum, -((toC ((om * om + (ofR (p * p) : T))⁻¹ * (ofR PREFACTOR : T))) * (c.quarks_internal.map (fun qi => gluon.thermal.polarization_quark_t_thermal_part_zero_temp_landau ig (withColours k 1) om p qi.mq mu * (ofR (qi.nf : ℝ) : ℂ))).sum), fun n => ?_⟩
    have hs := sum_scale (fun mq => gluon.thermal.polarization_quark_t_thermal_part_zero_temp_landau ig (withColours k n) om p mq mu) (fun mq => gluon.thermal.polarization_quark_t_thermal_part_zero_temp_landau ig (withColours k 1) om p mq mu) (fun n => (ofR (n : ℝ) : ℂ)) (((n : ℝ)⁻¹ : ℝ) : ℂ) (fun mq => nc_general_t_zt ig hg k n om p mq mu) c.quarks_internal
    have hv : ∀ s : T, qcd.gluon.dressing_inv_landau_w_field_config (withColours k n) s f0 c = qcd.gluon.dressing_inv_landau_w_field_config (withColours k 1) s f0 c := fun _ => rfl
    have hgl : gluon.thermal.polarization_glue_t_thermal_part_landau ig (withColours k n) om p c.gluon beta = gluon.thermal.polarization_glue_t_thermal_part_landau ig (withColours k 1) om p c.gluon beta := rfl
    simp only [qcd.thermal.gluon.dressing_t_inv_zero_temp_landau_w_field_config, hs, hv, hgl]
    push_cast
    ring

/-! ### qcd::thermal::zero_matsubara::gluon -/

/-- **C31** (`qcd::thermal::zero_matsubara::gluon`): apart from the configuration the results depend on the number of colours, the
integration defaults and the Matsubara regulator only: not on the number of fermions, its ratio to the number of
colours, or the default quark mass. -/
theorem C31_reads_only_zero_matsubara (ig : Integrator) (k k' : Consts ℝ) (h1 : k.nc = k'.nc)
    (h2 : k.tol_integral = k'.tol_integral) (h3 : k.max_iter_integral = k'.max_iter_integral)
    (h4 : k.matsubara_reg = k'.matsubara_reg) (p : ℝ) (beta mu f0 : ℝ) (c : FieldConfig) :
    qcd.thermal.zero_matsubara.gluon.configValues ig k p beta mu f0 c = qcd.thermal.zero_matsubara.gluon.configValues ig k' p beta mu f0 c ∧
    qcd.thermal.zero_matsubara.gluon.configZeroTempValues ig k p mu f0 c = qcd.thermal.zero_matsubara.gluon.configZeroTempValues ig k' p mu f0 c := by
  obtain ⟨nc, nf, r, mq, tol, it, reg⟩ := k
  obtain ⟨nc', nf', r', mq', tol', it', reg'⟩ := k'
  simp only at h1 h2 h3 h4
  subst h1 h2 h3 h4
  exact ⟨rfl, rfl⟩

theorem nc_zero_matsubara_l_i (k : Consts ℝ) (n : ℕ) (q : ℝ) (p : ℝ) (mq beta mu : ℝ) :
    (gluon.thermal.polarization_quark_l_thermal_part_landau_i (withColours k n) q k.matsubara_reg p mq beta mu).re = ((n : ℝ)⁻¹) * (gluon.thermal.polarization_quark_l_thermal_part_landau_i (withColours k 1) q k.matsubara_reg p mq beta mu).re := by
  simp only [gluon.thermal.polarization_quark_l_thermal_part_landau_i, withColours, toC_complex, toC_real, toC_ofR, ofR_real, ofR_complex, map_add, map_sub, map_neg, map_mul, map_inv₀, map_div₀, Nat.cast_one, mul_one, mul_inv, neg_mul, Complex.ofReal_mul, Complex.ofReal_inv, Complex.ofReal_div, Complex.ofReal_neg, Complex.ofReal_natCast, div_eq_mul_inv, Complex.ofReal_one]
  rw [← Complex.re_ofReal_mul]
  congr 1
  push_cast
  ring

theorem nc_zero_matsubara_l (ig : Integrator) (hg : ig.Homogeneous) (k : Consts ℝ) (n : ℕ) (p : ℝ) (mq beta mu : ℝ) :
    gluon.thermal.zero_matsubara.polarization_quark_l_thermal_part_landau ig (withColours k n) p mq beta mu = gluon.thermal.zero_matsubara.polarization_quark_l_thermal_part_landau ig (withColours k 1) p mq beta mu * ((n : ℝ)⁻¹) := by
  have h := fun q => nc_zero_matsubara_l_i k n q p mq beta mu
  simp only [gluon.thermal.zero_matsubara.polarization_quark_l_thermal_part_landau, gluon.thermal.zero_matsubara.polarization_quark_l_thermal_part_landau_w_method, withColours, zero_matsubara_default_method, get_default_integration_method, and_self, if_true]
  simp only [withColours] at h
  simp only [h, mul_div_assoc, hg.real]
  ring

theorem nc_zero_matsubara_l_zt_i (k : Consts ℝ) (n : ℕ) (q : ℝ) (p : ℝ) (mq mu : ℝ) :
    (gluon.thermal.polarization_quark_l_thermal_part_zero_temp_landau_i (withColours k n) q k.matsubara_reg p mq mu).re = ((n : ℝ)⁻¹) * (gluon.thermal.polarization_quark_l_thermal_part_zero_temp_landau_i (withColours k 1) q k.matsubara_reg p mq mu).re := by
  simp only [gluon.thermal.polarization_quark_l_thermal_part_zero_temp_landau_i, withColours, toC_complex, toC_real, toC_ofR, ofR_real, ofR_complex, map_add, map_sub, map_neg, map_mul, map_inv₀, map_div₀, Nat.cast_one, mul_one, mul_inv, neg_mul, Complex.ofReal_mul, Complex.ofReal_inv, Complex.ofReal_div, Complex.ofReal_neg, Complex.ofReal_natCast, div_eq_mul_inv, Complex.ofReal_one]
  rw [← Complex.re_ofReal_mul]
  congr 1
  push_cast
  ring

theorem nc_zero_matsubara_l_zt (ig : Integrator) (hg : ig.Homogeneous) (k : Consts ℝ) (n : ℕ) (p : ℝ) (mq mu : ℝ) :
    gluon.thermal.zero_matsubara.polarization_quark_l_thermal_part_zero_temp_landau ig (withColours k n) p mq mu = gluon.thermal.zero_matsubara.polarization_quark_l_thermal_part_zero_temp_landau ig (withColours k 1) p mq mu * ((n : ℝ)⁻¹) := by
  have h := fun q => nc_zero_matsubara_l_zt_i k n q p mq mu
  simp only [gluon.thermal.zero_matsubara.polarization_quark_l_thermal_part_zero_temp_landau, gluon.thermal.zero_matsubara.polarization_quark_l_thermal_part_zero_temp_landau_w_method, withColours, zero_matsubara_default_method, get_default_integration_method, and_self, if_true]
  simp only [withColours] at h
  split_ifs
  · rw [zero_mul]
  · simp only [h, hg.real]
    ring

theorem nc_zero_matsubara_t_i (k : Consts ℝ) (n : ℕ) (q : ℝ) (p : ℝ) (mq beta mu : ℝ) :
    (gluon.thermal.polarization_quark_t_thermal_part_landau_i (withColours k n) q k.matsubara_reg p mq beta mu).re = ((n : ℝ)⁻¹) * (gluon.thermal.polarization_quark_t_thermal_part_landau_i (withColours k 1) q k.matsubara_reg p mq beta mu).re := by
  simp only [gluon.thermal.polarization_quark_t_thermal_part_landau_i, withColours, toC_complex, toC_real, toC_ofR, ofR_real, ofR_complex, map_add, map_sub, map_neg, map_mul, map_inv₀, map_div₀, Nat.cast_one, mul_one, mul_inv, neg_mul, Complex.ofReal_mul, Complex.ofReal_inv, Complex.ofReal_div, Complex.ofReal_neg, Complex.ofReal_natCast, div_eq_mul_inv, Complex.ofReal_one]
  rw [← Complex.re_ofReal_mul]
  congr 1
  push_cast
  ring

theorem nc_zero_matsubara_t (ig : Integrator) (hg : ig.Homogeneous) (k : Consts ℝ) (n : ℕ) (p : ℝ) (mq beta mu : ℝ) :
    gluon.thermal.zero_matsubara.polarization_quark_t_thermal_part_landau ig (withColours k n) p mq beta mu = gluon.thermal.zero_matsubara.polarization_quark_t_thermal_part_landau ig (withColours k 1) p mq beta mu * ((n : ℝ)⁻¹) := by
  have h := fun q => nc_zero_matsubara_t_i k n q p mq beta mu
  simp only [gluon.thermal.zero_matsubara.polarization_quark_t_thermal_part_landau, gluon.thermal.zero_matsubara.polarization_quark_t_thermal_part_landau_w_method, withColours, zero_matsubara_default_method, get_default_integration_method, and_self, if_true]
  simp only [withColours] at h
  simp only [h, mul_div_assoc, hg.real]
  ring

theorem nc_zero_matsubara_t_zt_i (k : Consts ℝ) (n : ℕ) (q : ℝ) (p : ℝ) (mq mu : ℝ) :
    (gluon.thermal.polarization_quark_t_thermal_part_zero_temp_landau_i (withColours k n) q k.matsubara_reg p mq mu).re = ((n : ℝ)⁻¹) * (gluon.thermal.polarization_quark_t_thermal_part_zero_temp_landau_i (withColours k 1) q k.matsubara_reg p mq mu).re := by
  simp only [gluon.thermal.polarization_quark_t_thermal_part_zero_temp_landau_i, withColours, toC_complex, toC_real, toC_ofR, ofR_real, ofR_complex, map_add, map_sub, map_neg, map_mul, map_inv₀, map_div₀, Nat.cast_one, mul_one, mul_inv, neg_mul, Complex.ofReal_mul, Complex.ofReal_inv, Complex.ofReal_div, Complex.ofReal_neg, Complex.ofReal_natCast, div_eq_mul_inv, Complex.ofReal_one]
  rw [← Complex.re_ofReal_mul]
  congr 1
  push_cast
  ring

theorem nc_zero_matsubara_t_zt (ig : Integrator) (hg : ig.Homogeneous) (k : Consts ℝ) (n : ℕ) (p : ℝ) (mq mu : ℝ) :
    gluon.thermal.zero_matsubara.polarization_quark_t_thermal_part_zero_temp_landau ig (withColours k n) p mq mu = gluon.thermal.zero_matsubara.polarization_quark_t_thermal_part_zero_temp_landau ig (withColours k 1) p mq mu * ((n : ℝ)⁻¹) := by
  have h := fun q => nc_zero_matsubara_t_zt_i k n q p mq mu
  simp only [gluon.thermal.zero_matsubara.polarization_quark_t_thermal_part_zero_temp_landau, gluon.thermal.zero_matsubara.polarization_quark_t_thermal_part_zero_temp_landau_w_method, withColours, zero_matsubara_default_method, get_default_integration_method, and_self, if_true]
  simp only [withColours] at h
  split_ifs
  · rw [zero_mul]
  · simp only [h, hg.real]
    ring

/-- **C31** (`qcd::thermal::zero_matsubara::gluon`): for a homogeneous integrator and a fixed configuration, each inverse dressing
is `B + Q / nc` as a function of the global number of colours. -/
theorem C31_scaling_zero_matsubara (ig : Integrator) (hg : ig.Homogeneous) (k : Consts ℝ) (p : ℝ) (beta mu f0 : ℝ)
    (c : FieldConfig) :
    (∃ B Q : ℝ, ∀ n : ℕ, qcd.thermal.zero_matsubara.gluon.dressing_l_inv_landau_w_field_config ig (withColours k n) p beta mu f0 c = B + Q / n) ∧
    (∃ B Q : ℝ, ∀ n : ℕ, qcd.thermal.zero_matsubara.gluon.dressing_l_inv_zero_temp_landau_w_field_config ig (withColours k n) p mu f0 c = B + Q / n) ∧
    (∃ B Q : ℝ, ∀ n : ℕ, qcd.thermal.zero_matsubara.gluon.dressing_t_inv_landau_w_field_config ig (withColours k n) p beta mu f0 c = B + Q / n) ∧
    (∃ B Q : ℝ, ∀ n : ℕ, qcd.thermal.zero_matsubara.gluon.dressing_t_inv_zero_temp_landau_w_field_config ig (withColours k n) p mu f0 c = B + Q / n) := by
  refine ⟨?_, ?_, ?_, ?_⟩
  · refine ⟨qcd.thermal.zero_matsubara.gluon.dressing_l_inv_landau_w_field_config ig (withColours k 1) p beta mu f0 c + (PREFACTOR / (p * p)) * (c.quarks_internal.map (fun qi => gluon.thermal.zero_matsubara.polarization_quark_l_thermal_part_landau ig (withColours k 1) p qi.mq beta mu * (qi.nf : ℝ))).sum, -((PREFACTOR / (p * p)) * (c.quarks_internal.map (fun qi => gluon.thermal.zero_matsubara.polarization_quark_l_thermal_part_landau ig (withColours k 1) p qi.mq beta mu * (qi.nf : ℝ))).sum), fun n => ?_⟩
    have hs := sum_scale (fun mq => gluon.thermal.zero_matsubara.polarization_quark_l_thermal_part_landau ig (withColours k n) p mq beta mu) (fun mq => gluon.thermal.zero_matsubara.polarization_quark_l_thermal_part_landau ig (withColours k 1) p mq beta mu) (fun n => (n : ℝ)) ((n : ℝ)⁻¹) (fun mq => nc_zero_matsubara_l ig hg k n p mq beta mu) c.quarks_internal
    have hv : ∀ s : ℝ, qcd.gluon.dressing_inv_landau_w_field_config (withColours k n) s f0 c = qcd.gluon.dressing_inv_landau_w_field_config (withColours k 1) s f0 c := fun _ => rfl
    have hgl : gluon.thermal.zero_matsubara.polarization_glue_l_thermal_part_landau ig (withColours k n) p c.gluon beta = gluon.thermal.zero_matsubara.polarization_glue_l_thermal_part_landau ig (withColours k 1) p c.gluon beta := rfl
    simp only [qcd.thermal.zero_matsubara.gluon.dressing_l_inv_landau_w_field_config, hs, hv, hgl]
    
    ring
  · refine ⟨qcd.thermal.zero_matsubara.gluon.dressing_l_inv_zero_temp_landau_w_field_config ig (withColours k 1) p mu f0 c + (PREFACTOR / (p * p)) * (c.quarks_internal.map (fun qi => gluon.thermal.zero_matsubara.polarization_quark_l_thermal_part_zero_temp_landau ig (withColours k 1) p qi.mq mu * (qi.nf : ℝ))).sum, -((PREFACTOR / (p * p)) * (c.quarks_internal.map (fun qi => gluon.thermal.zero_matsubara.polarization_quark_l_thermal_part_zero_temp_landau ig (withColours k 1) p qi.mq mu * (qi.nf : ℝ))).sum), fun n => ?_⟩
    have hs := sum_scale (fun mq => gluon.thermal.zero_matsubara.polarization_quark_l_thermal_part_zero_temp_landau ig (withColours k n) p mq mu) (fun mq => gluon.thermal.zero_matsubara.polarization_quark_l_thermal_part_zero_temp_landau ig (withColours k 1) p mq mu) (fun n => (n : ℝ)) ((n : ℝ)⁻¹) (fun mq => nc_zero_matsubara_l_zt ig hg k n p mq mu) c.quarks_internal
    have hv : ∀ s : ℝ, qcd.gluon.dressing_inv_landau_w_field_config (withColours k n) s f0 c = qcd.gluon.dressing_inv_landau_w_field_config (withColours k 1) s f0 c := fun _ => rfl
    have hgl : gluon.thermal.zero_matsubara.polarization_glue_l_thermal_part_landau ig (withColours k n) p c.gluon beta = gluon.thermal.zero_matsubara.polarization_glue_l_thermal_part_landau ig (withColours k 1) p c.gluon beta := rfl
    simp only [qcd.thermal.zero_matsubara.gluon.dressing_l_inv_zero_temp_landau_w_field_config, hs, hv, hgl]
    
    ring
  · refine ⟨qcd.thermal.zero_matsubara.gluon.dressing_t_inv_landau_w_field_config ig (withColours k 1) p beta mu f0 c + (PREFACTOR / (p * p)) * (c.quarks_internal.map (fun qi => gluon.thermal.zero_matsubara.polarization_quark_t_thermal_part_landau ig (withColours k 1) p qi.mq beta mu * (qi.nf : ℝ))).sum, -((PREFACTOR / (p * p)) * (c.quarks_internal.map (fun qi => gluon.thermal.zero_matsubara.polarization_quark_t_thermal_part_landau ig (withColours k 1) p qi.mq beta mu * (qi.nf : ℝ))).sum), fun n => ?_⟩
    have hs := sum_scale (fun mq => gluon.thermal.zero_matsubara.polarization_quark_t_thermal_part_landau ig (withColours k n) p mq beta mu) (fun mq => gluon.thermal.zero_matsubara.polarization_quark_t_thermal_part_landau ig (withColours k 1) p mq beta mu) (fun n => (n : ℝ)) ((n : ℝ)⁻¹) (fun mq => nc_zero_matsubara_t ig hg k n p mq beta mu) c.quarks_internal
    have hv : ∀ s : ℝ, qcd.gluon.dressing_inv_landau_w_field_config (withColours k n) s f0 c = qcd.gluon.dressing_inv_landau_w_field_config (withColours k 1) s f0 c := fun _ => rfl
    have hgl : gluon.thermal.zero_matsubara.polarization_glue_t_thermal_part_landau ig (withColours k n) p c.gluon beta = gluon.thermal.zero_matsubara.polarization_glue_t_thermal_part_landau ig (withColours k 1) p c.gluon beta := rfl
    simp only [qcd.thermal.zero_matsubara.gluon.dressing_t_inv_landau_w_field_config, hs, hv, hgl]
    
    ring
  · refine ⟨qcd.thermal.zero_matsubara.gluon.dressing_t_inv_zero_temp_landau_w_field_config ig (withColours k 1) p mu f0 c + (PREFACTOR / (p * p)) * (c.quarks_internal.map (fun qi => gluon.thermal.zero_matsubara.polarization_quark_t_thermal_part_zero_temp_landau ig (withColours k 1) p qi.mq mu * (qi.nf : ℝ))).sum, -((PREFACTOR / (p * p)) * (c.quarks_internal.map (fun qi => gluon.thermal.zero_matsubara.polarization_quark_t_thermal_part_zero_temp_landau ig (withColours k 1) p qi.mq mu * (qi.nf : ℝ))).sum), fun n => ?_⟩
    have hs := sum_scale (fun mq => gluon.thermal.zero_matsubara.polarization_quark_t_thermal_part_zero_temp_landau ig (withColours k n) p mq mu) (fun mq => gluon.thermal.zero_matsubara.polarization_quark_t_thermal_part_zero_temp_landau ig (withColours k 1) p mq mu) (fun n => (n : ℝ)) ((n : ℝ)⁻¹) (fun mq => nc_zero_matsubara_t_zt ig hg k n p mq mu) c.quarks_internal
    have hv : ∀ s : ℝ, qcd.gluon.dressing_inv_landau_w_field_config (withColours k n) s f0 c = qcd.gluon.dressing_inv_landau_w_field_config (withColours k 1) s f0 c := fun _ => rfl
    have hgl : gluon.thermal.zero_matsubara.polarization_glue_t_thermal_part_landau ig (withColours k n) p c.gluon beta = gluon.thermal.zero_matsubara.polarization_glue_t_thermal_part_landau ig (withColours k 1) p c.gluon beta := rfl
    simp only [qcd.thermal.zero_matsubara.gluon.dressing_t_inv_zero_temp_landau_w_field_config, hs, hv, hgl]
    
    ring

/-! ### qcd::thermal::zero_momentum::gluon -/

/-- **C31** (`qcd::thermal::zero_momentum::gluon`): apart from the configuration the results depend on the number of colours, the
integration defaults and the Matsubara regulator only: not on the number of fermions, its ratio to the number of
colours, or the default quark mass. -/
theorem C31_reads_only_zero_momentum (ig : Integrator) (k k' : Consts ℝ) (h1 : k.nc = k'.nc)
    (h2 : k.tol_integral = k'.tol_integral) (h3 : k.max_iter_integral = k'.max_iter_integral)
    (h4 : k.matsubara_reg = k'.matsubara_reg) (om : T) (beta mu f0 : ℝ) (c : FieldConfig) :
    qcd.thermal.zero_momentum.gluon.configValues ig k om beta mu f0 c = qcd.thermal.zero_momentum.gluon.configValues ig k' om beta mu f0 c ∧
    qcd.thermal.zero_momentum.gluon.configZeroTempValues ig k om mu f0 c = qcd.thermal.zero_momentum.gluon.configZeroTempValues ig k' om mu f0 c := by
  obtain ⟨nc, nf, r, mq, tol, it, reg⟩ := k
  obtain ⟨nc', nf', r', mq', tol', it', reg'⟩ := k'
  simp only at h1 h2 h3 h4
  subst h1 h2 h3 h4
  exact ⟨rfl, rfl⟩

theorem nc_zero_momentum_l_i (k : Consts ℝ) (n : ℕ) (q : ℝ) (om : T) (mq beta mu : ℝ) :
    (toC (gluon.thermal.zero_momentum.polarization_quark_l_thermal_part_landau_i (withColours k n) q om mq beta mu)) = (((n : ℝ)⁻¹ : ℝ) : ℂ) * (toC (gluon.thermal.zero_momentum.polarization_quark_l_thermal_part_landau_i (withColours k 1) q om mq beta mu)) := by
  simp only [gluon.thermal.zero_momentum.polarization_quark_l_thermal_part_landau_i, withColours, toC_complex, toC_real, toC_ofR, ofR_real, ofR_complex, map_add, map_sub, map_neg, map_mul, map_inv₀, map_div₀, Nat.cast_one, mul_one, mul_inv, neg_mul, Complex.ofReal_mul, Complex.ofReal_inv, Complex.ofReal_div, Complex.ofReal_neg, Complex.ofReal_natCast, div_eq_mul_inv, Complex.ofReal_one]
  ring

theorem nc_zero_momentum_l (ig : Integrator) (hg : ig.Homogeneous) (k : Consts ℝ) (n : ℕ) (om : T) (mq beta mu : ℝ) :
    gluon.thermal.zero_momentum.polarization_quark_l_thermal_part_landau ig (withColours k n) om mq beta mu = gluon.thermal.zero_momentum.polarization_quark_l_thermal_part_landau ig (withColours k 1) om mq beta mu * (((n : ℝ)⁻¹ : ℝ) : ℂ) := by
  have h := fun q => nc_zero_momentum_l_i k n q om mq beta mu
  simp only [gluon.thermal.zero_momentum.polarization_quark_l_thermal_part_landau, gluon.thermal.zero_momentum.polarization_quark_l_thermal_part_landau_w_method, withColours, get_default_integration_method]
  simp only [withColours] at h
  simp only [h, mul_div_assoc, hg.cplx]
  ring

theorem nc_zero_momentum_l_zt_i (k : Consts ℝ) (n : ℕ) (q : ℝ) (om : T) (mq mu : ℝ) :
    (toC (gluon.thermal.zero_momentum.polarization_quark_l_thermal_part_zero_temp_landau_i (withColours k n) q om mq mu)) = (((n : ℝ)⁻¹ : ℝ) : ℂ) * (toC (gluon.thermal.zero_momentum.polarization_quark_l_thermal_part_zero_temp_landau_i (withColours k 1) q om mq mu)) := by
  simp only [gluon.thermal.zero_momentum.polarization_quark_l_thermal_part_zero_temp_landau_i, withColours, toC_complex, toC_real, toC_ofR, ofR_real, ofR_complex, map_add, map_sub, map_neg, map_mul, map_inv₀, map_div₀, Nat.cast_one, mul_one, mul_inv, neg_mul, Complex.ofReal_mul, Complex.ofReal_inv, Complex.ofReal_div, Complex.ofReal_neg, Complex.ofReal_natCast, div_eq_mul_inv, Complex.ofReal_one]
  ring

theorem nc_zero_momentum_l_zt (ig : Integrator) (hg : ig.Homogeneous) (k : Consts ℝ) (n : ℕ) (om : T) (mq mu : ℝ) :
    gluon.thermal.zero_momentum.polarization_quark_l_thermal_part_zero_temp_landau ig (withColours k n) om mq mu = gluon.thermal.zero_momentum.polarization_quark_l_thermal_part_zero_temp_landau ig (withColours k 1) om mq mu * (((n : ℝ)⁻¹ : ℝ) : ℂ) := by
  have h := fun q => nc_zero_momentum_l_zt_i k n q om mq mu
  simp only [gluon.thermal.zero_momentum.polarization_quark_l_thermal_part_zero_temp_landau, gluon.thermal.zero_momentum.polarization_quark_l_thermal_part_zero_temp_landau_w_method, withColours, get_default_integration_method]
  simp only [withColours] at h
  split_ifs
  · rw [zero_mul]
  · simp only [h, hg.cplx]
    ring

theorem nc_zero_momentum_t_i (k : Consts ℝ) (n : ℕ) (q : ℝ) (om : T) (mq beta mu : ℝ) :
    (toC (gluon.thermal.zero_momentum.polarization_quark_t_thermal_part_landau_i (withColours k n) q om mq beta mu)) = (((n : ℝ)⁻¹ : ℝ) : ℂ) * (toC (gluon.thermal.zero_momentum.polarization_quark_t_thermal_part_landau_i (withColours k 1) q om mq beta mu)) := by
  simp only [gluon.thermal.zero_momentum.polarization_quark_t_thermal_part_landau_i, gluon.thermal.zero_momentum.polarization_quark_l_thermal_part_landau_i, withColours, toC_complex, toC_real, toC_ofR, ofR_real, ofR_complex, map_add, map_sub, map_neg, map_mul, map_inv₀, map_div₀, Nat.cast_one, mul_one, mul_inv, neg_mul, Complex.ofReal_mul, Complex.ofReal_inv, Complex.ofReal_div, Complex.ofReal_neg, Complex.ofReal_natCast, div_eq_mul_inv, Complex.ofReal_one]
  ring

theorem nc_zero_momentum_t (ig : Integrator) (hg : ig.Homogeneous) (k : Consts ℝ) (n : ℕ) (om : T) (mq beta mu : ℝ) :
    gluon.thermal.zero_momentum.polarization_quark_t_thermal_part_landau ig (withColours k n) om mq beta mu = gluon.thermal.zero_momentum.polarization_quark_t_thermal_part_landau ig (withColours k 1) om mq beta mu * (((n : ℝ)⁻¹ : ℝ) : ℂ) := by
  have h := fun q => nc_zero_momentum_t_i k n q om mq beta mu
  simp only [gluon.thermal.zero_momentum.polarization_quark_t_thermal_part_landau, gluon.thermal.zero_momentum.polarization_quark_t_thermal_part_landau_w_method, withColours, get_default_integration_method]
  simp only [withColours] at h
  simp only [h, mul_div_assoc, hg.cplx]
  ring

theorem nc_zero_momentum_t_zt_i (k : Consts ℝ) (n : ℕ) (q : ℝ) (om : T) (mq mu : ℝ) :
    (toC (gluon.thermal.zero_momentum.polarization_quark_t_thermal_part_zero_temp_landau_i (withColours k n) q om mq mu)) = (((n : ℝ)⁻¹ : ℝ) : ℂ) * (toC (gluon.thermal.zero_momentum.polarization_quark_t_thermal_part_zero_temp_landau_i (withColours k 1) q om mq mu)) := by
  simp only [gluon.thermal.zero_momentum.polarization_quark_t_thermal_part_zero_temp_landau_i, gluon.thermal.zero_momentum.polarization_quark_l_thermal_part_zero_temp_landau_i, withColours, toC_complex, toC_real, toC_ofR, ofR_real, ofR_complex, map_add, map_sub, map_neg, map_mul, map_inv₀, map_div₀, Nat.cast_one, mul_one, mul_inv, neg_mul, Complex.ofReal_mul, Complex.ofReal_inv, Complex.ofReal_div, Complex.ofReal_neg, Complex.ofReal_natCast, div_eq_mul_inv, Complex.ofReal_one]
  ring

theorem nc_zero_momentum_t_zt (ig : Integrator) (hg : ig.Homogeneous) (k : Consts ℝ) (n : ℕ) (om : T) (mq mu : ℝ) :
    gluon.thermal.zero_momentum.polarization_quark_t_thermal_part_zero_temp_landau ig (withColours k n) om mq mu = gluon.thermal.zero_momentum.polarization_quark_t_thermal_part_zero_temp_landau ig (withColours k 1) om mq mu * (((n : ℝ)⁻¹ : ℝ) : ℂ) := by
  have h := fun q => nc_zero_momentum_t_zt_i k n q om mq mu
  simp only [gluon.thermal.zero_momentum.polarization_quark_t_thermal_part_zero_temp_landau, gluon.thermal.zero_momentum.polarization_quark_t_thermal_part_zero_temp_landau_w_method, withColours, get_default_integration_method]
  simp only [withColours] at h
  split_ifs
  · rw [zero_mul]
  · simp only [h, hg.cplx]
    ring

/-- **C31** (`qcd::thermal::zero_momentum::gluon`): for a homogeneous integrator and a fixed configuration, each inverse dressing
is `B + Q / nc` as a function of the global number of colours. -/
theorem C31_scaling_zero_momentum (ig : Integrator) (hg : ig.Homogeneous) (k : Consts ℝ) (om : T) (beta mu f0 : ℝ)
    (c : FieldConfig) :
    (∃ B Q : ℂ, ∀ n : ℕ, qcd.thermal.zero_momentum.gluon.dressing_l_inv_landau_w_field_config ig (withColours k n) om beta mu f0 c = B + Q / (n : ℂ)) ∧
    (∃ B Q : ℂ, ∀ n : ℕ, qcd.thermal.zero_momentum.gluon.dressing_l_inv_zero_temp_landau_w_field_config ig (withColours k n) om mu f0 c = B + Q / (n : ℂ)) ∧
    (∃ B Q : ℂ, ∀ n : ℕ, qcd.thermal.zero_momentum.gluon.dressing_t_inv_landau_w_field_config ig (withColours k n) om beta mu f0 c = B + Q / (n : ℂ)) ∧
    (∃ B Q : ℂ, ∀ n : ℕ, qcd.thermal.zero_momentum.gluon.dressing_t_inv_zero_temp_landau_w_field_config ig (withColours k n) om mu f0 c = B + Q / (n : ℂ)) := by
  refine ⟨?_, ?_, ?_, ?_⟩
  · refine ⟨qcd.thermal.zero_momentum.gluon.dressing_l_inv_landau_w_field_config ig (withColours k 1) om beta mu f0 c + (toC ((om * om)⁻¹ * (ofR PREFACTOR : T))) * (c.quarks_internal.map (fun qi => gluon.thermal.zero_momentum.polarization_quark_l_thermal_part_landau ig (withColours k 1) om qi.mq beta mu * (ofR (qi.nf : ℝ) : ℂ))).sum, -((toC ((om * om)⁻¹ * (ofR PREFACTOR : T))) * (c.quarks_internal.map (fun qi => gluon.thermal.zero_momentum.polarization_quark_l_thermal_part_landau ig (withColours k 1) om qi.mq beta mu * (ofR (qi.nf : ℝ) : ℂ))).sum), fun n => ?_⟩
    have hs := sum_scale (fun mq => gluon.thermal.zero_momentum.polarization_quark_l_thermal_part_landau ig (withColours k n) om mq beta mu) (fun mq => gluon.thermal.zero_momentum.polarization_quark_l_thermal_part_landau ig (withColours k 1) om mq beta mu) (fun n => (ofR (n : ℝ) : ℂ)) (((n : ℝ)⁻¹ : ℝ) : ℂ) (fun mq => nc_zero_momentum_l ig hg k n om mq beta mu) c.quarks_internal
    have hv : ∀ s : T, qcd.gluon.dressing_inv_landau_w_field_config (withColours k n) s f0 c = qcd.gluon.dressing_inv_landau_w_field_config (withColours k 1) s f0 c := fun _ => rfl
    have hgl : gluon.thermal.zero_momentum.polarization_glue_l_thermal_part_landau ig (withColours k n) om c.gluon beta = gluon.thermal.zero_momentum.polarization_glue_l_thermal_part_landau ig (withColours k 1) om c.gluon beta := rfl
    simp only [qcd.thermal.zero_momentum.gluon.dressing_l_inv_landau_w_field_config, hs, hv, hgl]
    push_cast
    ring
  · refine ⟨qcd.thermal.zero_momentum.gluon.dressing_l_inv_zero_temp_landau_w_field_config ig (withColours k 1) om mu f0 c + (toC ((om * om)⁻¹ * (ofR PREFACTOR : T))) * (c.quarks_internal.map (fun qi => gluon.thermal.zero_momentum.polarization_quark_l_thermal_part_zero_temp_landau ig (withColours k 1) om qi.mq mu * (ofR (qi.nf : ℝ) : ℂ))).sum, -((toC ((om * om)⁻¹ * (ofR PREFACTOR : T))) * (c.quarks_internal.map (fun qi => gluon.thermal.zero_momentum.polarization_quark_l_thermal_part_zero_temp_landau ig (withColours k 1) om qi.mq mu * (ofR (qi.nf : ℝ) : ℂ))).sum), fun n => ?_⟩
    have hs := sum_scale (fun mq => gluon.thermal.zero_momentum.polarization_quark_l_thermal_part_zero_temp_landau ig (withColours k n) om mq mu) (fun mq => gluon.thermal.zero_momentum.polarization_quark_l_thermal_part_zero_temp_landau ig (withColours k 1) om mq mu) (fun n => (ofR (n : ℝ) : ℂ)) (((n : ℝ)⁻¹ : ℝ) : ℂ) (fun mq => nc_zero_momentum_l_zt ig hg k n om mq mu) c.quarks_internal
    have hv : ∀ s : T, qcd.gluon.dressing_inv_landau_w_field_config (withColours k n) s f0 c = qcd.gluon.dressing_inv_landau_w_field_config (withColours k 1) s f0 c := fun _ => rfl
    have hgl : gluon.thermal.zero_momentum.polarization_glue_l_thermal_part_landau ig (withColours k n) om c.gluon beta = gluon.thermal.zero_momentum.polarization_glue_l_thermal_part_landau ig (withColours k 1) om c.gluon beta := rfl
    simp only [qcd.thermal.zero_momentum.gluon.dressing_l_inv_zero_temp_landau_w_field_config, hs, hv, hgl]
    push_cast
    ring
  · refine ⟨qcd.thermal.zero_momentum.gluon.dressing_t_inv_landau_w_field_config ig (withColours k 1) om beta mu f0 c + (toC ((om * om)⁻¹ * (ofR PREFACTOR : T))) * (c.quarks_internal.map (fun qi => gluon.thermal.zero_momentum.polarization_quark_t_thermal_part_landau ig (withColours k 1) om qi.mq beta mu * (ofR (qi.nf : ℝ) : ℂ))).sum, -((toC ((om * om)⁻¹ * (ofR PREFACTOR : T))) * (c.quarks_internal.map (fun qi => gluon.thermal.zero_momentum.polarization_quark_t_thermal_part_landau ig (withColours k 1) om qi.mq beta mu * (ofR (qi.nf : ℝ) : ℂ))).sum), fun n => ?_⟩
    have hs := sum_scale (fun mq => gluon.thermal.zero_momentum.polarization_quark_t_thermal_part_landau ig (withColours k n) om mq beta mu) (fun mq => gluon.thermal.zero_momentum.polarization_quark_t_thermal_part_landau ig (withColours k 1) om mq beta mu) (fun n => (ofR (n : ℝ) : ℂ)) (((n : ℝ)⁻¹ : ℝ) : ℂ) (fun mq => nc_zero_momentum_t ig hg k n om mq beta mu) c.quarks_internal
    have hv : ∀ s : T, qcd.gluon.dressing_inv_landau_w_field_config (withColours k n) s f0 c = qcd.gluon.dressing_inv_landau_w_field_config (withColours k 1) s f0 c := fun _ => rfl
    have hgl : gluon.thermal.zero_momentum.polarization_glue_t_thermal_part_landau ig (withColours k n) om c.gluon beta = gluon.thermal.zero_momentum.polarization_glue_t_thermal_part_landau ig (withColours k 1) om c.gluon beta := rfl
    simp only [qcd.thermal.zero_momentum.gluon.dressing_t_inv_landau_w_field_config, hs, hv, hgl]
    push_cast
    ring
  · refine ⟨qcd.thermal.zero_momentum.gluon.dressing_t_inv_zero_temp_landau_w_field_config ig (withColours k 1) om mu f0 c + (toC ((om * om)⁻¹ * (ofR PREFACTOR : T))) * (c.quarks_internal.map (fun qi => gluon.thermal.zero_momentum.polarization_quark_t_thermal_part_zero_temp_landau ig (withColours k 1) om qi.mq mu * (ofR (qi.nf : ℝ) : ℂ))).sum, -((toC ((om * om)⁻¹ * (ofR PREFACTOR : T))) * (c.quarks_internal.map (fun qi => gluon.thermal.zero_momentum.polarization_quark_t_thermal_part_zero_temp_landau ig (withColours k 1) om qi.mq mu * (ofR (qi.nf : ℝ) : ℂ))).sum), fun n => ?_⟩
    have hs := sum_scale (fun mq => gluon.thermal.zero_momentum.polarization_quark_t_thermal_part_zero_temp_landau ig (withColours k n) om mq mu) (fun mq => gluon.thermal.zero_momentum.polarization_quark_t_thermal_part_zero_temp_landau ig (withColours k 1) om mq mu) (fun n => (ofR (n : ℝ) : ℂ)) (((n : ℝ)⁻¹ : ℝ) : ℂ) (fun mq => nc_zero_momentum_t_zt ig hg k n om mq mu) c.quarks_internal
    have hv : ∀ s : T, qcd.gluon.dressing_inv_landau_w_field_config (withColours k n) s f0 c = qcd.gluon.dressing_inv_landau_w_field_config (withColours k 1) s f0 c := fun _ => rfl
    have hgl : gluon.thermal.zero_momentum.polarization_glue_t_thermal_part_landau ig (withColours k n) om c.gluon beta = gluon.thermal.zero_momentum.polarization_glue_t_thermal_part_landau ig (withColours k 1) om c.gluon beta := rfl
    simp only [qcd.thermal.zero_momentum.gluon.dressing_t_inv_zero_temp_landau_w_field_config, hs, hv, hgl]
    push_cast
    ring

/-! ### The violation -/

/-- The zero-momentum integrand at zero temperature, inside the Fermi sphere. -/
theorem zm_integrand (k : Consts ℝ) (q om mq mu : ℝ) (hmq : mq ≠ 0) (hq : energy q mq ≤ |mu|) :
    gluon.thermal.zero_momentum.polarization_quark_l_thermal_part_zero_temp_landau_i k q om mq mu =
      -((k.nc : ℝ)⁻¹ * (2 * (q * q) * (2 * (q * q) + 3 * (mq * mq)) /
        ((om * om + 4 * (mq * mq + q * q)) * Real.sqrt (mq * mq + q * q) * 3 * PI2))) := by
  have h0 : 0 < mq * mq + q * q := by
    have := mul_self_pos.2 hmq
    nlinarith [mul_self_nonneg q]
  have hen : 0 < energy q mq := by rw [energy_real]; exact Real.sqrt_pos.2 h0
  have hsq : Real.sqrt (mq * mq + q * q) * Real.sqrt (mq * mq + q * q) = mq * mq + q * q :=
    Real.mul_self_sqrt h0.le
  have hd := C15_double_zero_temp_value (energy q mq) mu hen
  rw [if_pos hq] at hd
  simp only [gluon.thermal.zero_momentum.polarization_quark_l_thermal_part_zero_temp_landau_i, hd, ofR_real]
  simp only [energy_real, hsq, mul_inv, div_eq_mul_inv]
  ring

/-- The zero-temperature quark polarization at zero momentum and real frequency does not vanish above
threshold. -/
theorem zm_nonzero (k : Consts ℝ) (om mq mu : ℝ) (hnc : k.nc ≠ 0) (hmq : mq ≠ 0) (hmu : |mq| < |mu|) :
    gluon.thermal.zero_momentum.polarization_quark_l_thermal_part_zero_temp_landau .exact k om mq mu ≠ 0 := by
  have hm2 := mul_self_pos.2 hmq
  have hsq : mq ^ 2 < mu ^ 2 := sq_lt_sq.2 hmu
  have hk : fermi_momentum mq mu ^ 2 = mu ^ 2 - mq ^ 2 := (C51_fermi_momentum mq mu hmu.le).2
  have hk0 : 0 < fermi_momentum mq mu := Real.sqrt_pos.2 (by nlinarith)
  simp only [gluon.thermal.zero_momentum.polarization_quark_l_thermal_part_zero_temp_landau,
    gluon.thermal.zero_momentum.polarization_quark_l_thermal_part_zero_temp_landau_w_method,
    if_neg (not_lt.2 hmu.le), Integrator.exact]
  have hin : ∀ q ∈ Icc 0 (fermi_momentum mq mu), energy q mq ≤ |mu| := by
    intro q hq
    rw [energy_real]
    apply Real.sqrt_le_iff.2 ⟨abs_nonneg _, ?_⟩
    rw [sq_abs]
    nlinarith [hq.1, hq.2]
  set g : ℝ → ℝ := fun q => (k.nc : ℝ)⁻¹ * (2 * (q * q) * (2 * (q * q) + 3 * (mq * mq)) /
        ((om * om + 4 * (mq * mq + q * q)) * Real.sqrt (mq * mq + q * q) * 3 * PI2)) with hg
  have hpi : 0 < PI2 := mul_pos Real.pi_pos Real.pi_pos
  have hpos : ∀ q : ℝ, 0 < mq * mq + q * q := fun q => by nlinarith [mul_self_nonneg q]
  have hden : ∀ q : ℝ, 0 < (om * om + 4 * (mq * mq + q * q)) * Real.sqrt (mq * mq + q * q) * 3 * PI2 := by
    intro q
    have h1 := hpos q
    have h2 := Real.sqrt_pos.2 h1
    have h3 : 0 < om * om + 4 * (mq * mq + q * q) := by nlinarith [mul_self_nonneg om]
    positivity
  have hcont : Continuous g := by
    refine continuous_const.mul (Continuous.div ?_ ?_ fun q => (hden q).ne')
    · fun_prop
    · fun_prop
  have hint : 0 < ∫ q in (0 : ℝ)..fermi_momentum mq mu, g q := by
    refine intervalIntegral.intervalIntegral_pos_of_pos_on (hcont.intervalIntegrable _ _) (fun q hq => ?_) hk0
    have hq0 : 0 < q * q := mul_pos hq.1 hq.1
    have hn : (0 : ℝ) < (k.nc : ℝ) := Nat.cast_pos.2 (Nat.pos_of_ne_zero hnc)
    have := hden q
    simp only [hg]
    positivity
  have heq : (∫ q in (0 : ℝ)..fermi_momentum mq mu,
      toC (gluon.thermal.zero_momentum.polarization_quark_l_thermal_part_zero_temp_landau_i k q om mq mu))
      = ((-∫ q in (0 : ℝ)..fermi_momentum mq mu, g q : ℝ) : ℂ) := by
    rw [← intervalIntegral.integral_neg, ← intervalIntegral.integral_ofReal]
    refine intervalIntegral.integral_congr fun q hq => ?_
    rw [uIcc_of_le hk0.le] at hq
    simp only [zm_integrand k q om mq mu hmq (hin q hq), toC_real, hg]
  rw [heq]
  exact_mod_cast (neg_lt_zero.2 hint).ne

/-- **C31** (violation): for every configuration with one flavour group lighter than the chemical potential, two
global states that differ only in the number of colours give different results, although the
configuration carries its own number of colours. -/
theorem C31_violation (k : Consts ℝ) (n n' : ℕ) (hn : n ≠ 0) (hn' : n' ≠ 0) (hne : n ≠ n')
    (om mu f0 m mq : ℝ) (nc nf : ℕ) (hom : om ≠ 0) (hnf : nf ≠ 0) (hmq : mq ≠ 0) (hmu : |mq| < |mu|) :
    qcd.thermal.zero_momentum.gluon.dressing_l_inv_zero_temp_landau_w_field_config .exact (withColours k n) om mu f0
        (FieldConfig.new nc m [(nf, mq)]) ≠
      qcd.thermal.zero_momentum.gluon.dressing_l_inv_zero_temp_landau_w_field_config .exact (withColours k n') om mu f0
        (FieldConfig.new nc m [(nf, mq)]) := by
  intro h
  have hz := zm_nonzero (withColours k 1) om mq mu one_ne_zero hmq hmu
  simp only [qcd.thermal.zero_momentum.gluon.dressing_l_inv_zero_temp_landau_w_field_config, FieldConfig.new,
    List.map_cons, List.map_nil, List.sum_cons, List.sum_nil, add_zero, QuarkInternal.new,
    nc_zero_momentum_l_zt .exact Integrator.exact_homogeneous k n, nc_zero_momentum_l_zt .exact Integrator.exact_homogeneous k n'] at h
  have hP : PREFACTOR ≠ 0 := by
    have := Real.pi_ne_zero
    simp [PREFACTOR, this]
  have hv : qcd.gluon.dressing_inv_landau_w_field_config (withColours k n) (om * om / ofR (m * m)) f0
      { nc := nc, gluon := m, quarks := [(nf, mq)], quarks_internal := [{ nf := nf, mq := mq, nf_div_nc := (nf : ℝ) / (nc : ℝ), mq_div_m_2 := mq * mq / (m * m) }] } =
     qcd.gluon.dressing_inv_landau_w_field_config (withColours k n') (om * om / ofR (m * m)) f0
      { nc := nc, gluon := m, quarks := [(nf, mq)], quarks_internal := [{ nf := nf, mq := mq, nf_div_nc := (nf : ℝ) / (nc : ℝ), mq_div_m_2 := mq * mq / (m * m) }] } := rfl
  have h2 := sub_right_injective h
  have hc1 : toC ((om * om)⁻¹ * (ofR PREFACTOR : ℝ)) ≠ 0 := by
    simp [hom, hP]
  have hc2 : (ofR (nf : ℝ) : ℂ) ≠ 0 := by simpa using hnf
  have h3 := mul_right_cancel₀ hc2 (mul_left_cancel₀ hc1 h2)
  have h4 := mul_left_cancel₀ hz h3
  apply hne
  have h5 : ((n : ℝ)⁻¹ : ℝ) = (n' : ℝ)⁻¹ := by exact_mod_cast h4
  exact_mod_cast inv_injective h5

/-- **C31** (violation, through the API): calling `set_number_of_colors` changes the result for a fixed
configuration with three colours. -/
theorem C31_violation_reachable :
    qcd.thermal.zero_momentum.gluon.dressing_l_inv_zero_temp_landau_w_field_config .exact (consts.after []) (1 : ℝ) 2 0
        (FieldConfig.new 3 1 [(1, 1)]) ≠
      qcd.thermal.zero_momentum.gluon.dressing_l_inv_zero_temp_landau_w_field_config .exact
        (consts.after [.number_of_colors 2]) (1 : ℝ) 2 0 (FieldConfig.new 3 1 [(1, 1)]) :=
  C31_violation (consts.after []) 3 2 (by norm_num) (by norm_num) (by norm_num) 1 2 0 1 1 3 1 one_ne_zero
    one_ne_zero one_ne_zero (by norm_num)

/-- The hypotheses on the states: they may differ in the number of fermions and the quark mass. -/
example : (consts.after [.number_of_fermions 5, .default_quark_mass 7] : Consts ℝ).nc = (consts.after [] : Consts ℝ).nc := rfl

end Qcd
