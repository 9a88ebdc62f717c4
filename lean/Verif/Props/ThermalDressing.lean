import Verif.Spec.ThermalDressing
import Verif.Props.VacuumAlgebra
import Verif.Props.QcdVacuum
import Verif.Props.Distributions

/-! # C06, C42, C43, C45: the thermal dressing functions, whatever the integrator

Generated by a script. -/

set_option linter.unusedSimpArgs false
set_option linter.unusedTactic false
set_option linter.unreachableTactic false
set_option linter.unusedVariables false
set_option linter.unusedSectionVars false

namespace Qcd
open consts (Consts Integral get_default_integration_method)
variable {T T1 T2 : Type} [Num T] [Num T1] [Num T2]

/-! ### C06 -/

/-- **C06** (violation): the tolerance used by default at zero Matsubara frequency is `1e-8` in every
global state, in particular after any `set_default_tol_integral`. -/
theorem C06_default_method (h : List (consts.Setter ℝ)) :
    zero_matsubara_default_method (consts.after h) = .G7K15 (1 / 10 ^ 8) (consts.after h).max_iter_integral := by
  simp [zero_matsubara_default_method, get_default_integration_method]

/-- **C06** (consequence): every default-method polarization at zero Matsubara frequency integrates
with tolerance `1e-8`. -/
theorem C06_functions (ig : Integrator) (h : List (consts.Setter ℝ)) :
    let k := consts.after h
    (∀ (p : ℝ) (m : ℝ) (beta : ℝ), gluon.thermal.zero_matsubara.polarization_glue_l_thermal_part_landau ig k p m beta =
      gluon.thermal.zero_matsubara.polarization_glue_l_thermal_part_landau_w_method ig k p m beta (.G7K15 (1 / 10 ^ 8) k.max_iter_integral)) ∧
    (∀ (p : ℝ) (m : ℝ) (beta : ℝ), gluon.thermal.zero_matsubara.polarization_glue_t_thermal_part_landau ig k p m beta =
      gluon.thermal.zero_matsubara.polarization_glue_t_thermal_part_landau_w_method ig k p m beta (.G7K15 (1 / 10 ^ 8) k.max_iter_integral)) ∧
    (∀ (p : ℝ) (mq : ℝ) (beta : ℝ) (mu : ℝ), gluon.thermal.zero_matsubara.polarization_quark_l_thermal_part_landau ig k p mq beta mu =
      gluon.thermal.zero_matsubara.polarization_quark_l_thermal_part_landau_w_method ig k p mq beta mu (.G7K15 (1 / 10 ^ 8) k.max_iter_integral)) ∧
    (∀ (p : ℝ) (mq : ℝ) (beta : ℝ) (mu : ℝ), gluon.thermal.zero_matsubara.polarization_quark_t_thermal_part_landau ig k p mq beta mu =
      gluon.thermal.zero_matsubara.polarization_quark_t_thermal_part_landau_w_method ig k p mq beta mu (.G7K15 (1 / 10 ^ 8) k.max_iter_integral)) ∧
    (∀ (p : ℝ) (mq : ℝ) (mu : ℝ), gluon.thermal.zero_matsubara.polarization_quark_l_thermal_part_zero_temp_landau ig k p mq mu =
      gluon.thermal.zero_matsubara.polarization_quark_l_thermal_part_zero_temp_landau_w_method ig k p mq mu (.G7K15 (1 / 10 ^ 8) k.max_iter_integral)) ∧
    (∀ (p : ℝ) (mq : ℝ) (mu : ℝ), gluon.thermal.zero_matsubara.polarization_quark_t_thermal_part_zero_temp_landau ig k p mq mu =
      gluon.thermal.zero_matsubara.polarization_quark_t_thermal_part_zero_temp_landau_w_method ig k p mq mu (.G7K15 (1 / 10 ^ 8) k.max_iter_integral)) := by
  have e := C06_default_method h
  refine ⟨?_, ?_, ?_, ?_, ?_, ?_⟩ <;> intros <;>
    simp only [gluon.thermal.zero_matsubara.polarization_glue_l_thermal_part_landau, gluon.thermal.zero_matsubara.polarization_glue_t_thermal_part_landau, gluon.thermal.zero_matsubara.polarization_quark_l_thermal_part_landau, gluon.thermal.zero_matsubara.polarization_quark_t_thermal_part_landau, gluon.thermal.zero_matsubara.polarization_quark_l_thermal_part_zero_temp_landau, gluon.thermal.zero_matsubara.polarization_quark_t_thermal_part_zero_temp_landau, e]

/-- **C06** (consequence): setting the default tolerance does not change them. -/
theorem C06_tolerance_ignored (ig : Integrator) (k : Consts ℝ) (tol : ℝ) :
    (∀ (p : ℝ) (m : ℝ) (beta : ℝ), gluon.thermal.zero_matsubara.polarization_glue_l_thermal_part_landau ig { k with tol_integral := tol } p m beta = gluon.thermal.zero_matsubara.polarization_glue_l_thermal_part_landau ig k p m beta) ∧
    (∀ (p : ℝ) (m : ℝ) (beta : ℝ), gluon.thermal.zero_matsubara.polarization_glue_t_thermal_part_landau ig { k with tol_integral := tol } p m beta = gluon.thermal.zero_matsubara.polarization_glue_t_thermal_part_landau ig k p m beta) ∧
    (∀ (p : ℝ) (mq : ℝ) (beta : ℝ) (mu : ℝ), gluon.thermal.zero_matsubara.polarization_quark_l_thermal_part_landau ig { k with tol_integral := tol } p mq beta mu = gluon.thermal.zero_matsubara.polarization_quark_l_thermal_part_landau ig k p mq beta mu) ∧
    (∀ (p : ℝ) (mq : ℝ) (beta : ℝ) (mu : ℝ), gluon.thermal.zero_matsubara.polarization_quark_t_thermal_part_landau ig { k with tol_integral := tol } p mq beta mu = gluon.thermal.zero_matsubara.polarization_quark_t_thermal_part_landau ig k p mq beta mu) ∧
    (∀ (p : ℝ) (mq : ℝ) (mu : ℝ), gluon.thermal.zero_matsubara.polarization_quark_l_thermal_part_zero_temp_landau ig { k with tol_integral := tol } p mq mu = gluon.thermal.zero_matsubara.polarization_quark_l_thermal_part_zero_temp_landau ig k p mq mu) ∧
    (∀ (p : ℝ) (mq : ℝ) (mu : ℝ), gluon.thermal.zero_matsubara.polarization_quark_t_thermal_part_zero_temp_landau ig { k with tol_integral := tol } p mq mu = gluon.thermal.zero_matsubara.polarization_quark_t_thermal_part_zero_temp_landau ig k p mq mu) := by
  refine ⟨?_, ?_, ?_, ?_, ?_, ?_⟩ <;> intros <;>
    simp [zero_matsubara_default_method, get_default_integration_method, gluon.thermal.zero_matsubara.polarization_glue_l_thermal_part_landau, gluon.thermal.zero_matsubara.polarization_glue_l_thermal_part_landau_w_method, gluon.thermal.zero_matsubara.polarization_glue_t_thermal_part_landau, gluon.thermal.zero_matsubara.polarization_glue_t_thermal_part_landau_w_method, gluon.thermal.zero_matsubara.polarization_quark_l_thermal_part_landau, gluon.thermal.zero_matsubara.polarization_quark_l_thermal_part_landau_w_method, gluon.thermal.zero_matsubara.polarization_quark_t_thermal_part_landau, gluon.thermal.zero_matsubara.polarization_quark_t_thermal_part_landau_w_method, gluon.thermal.zero_matsubara.polarization_quark_l_thermal_part_zero_temp_landau, gluon.thermal.zero_matsubara.polarization_quark_l_thermal_part_zero_temp_landau_w_method, gluon.thermal.zero_matsubara.polarization_quark_t_thermal_part_zero_temp_landau, gluon.thermal.zero_matsubara.polarization_quark_t_thermal_part_zero_temp_landau_w_method] <;> rfl

/- A user who asks for 1e-12 gets 1e-8. -/
example : zero_matsubara_default_method (consts.after [.default_tol_integral (1 / 10 ^ 12)])
    ≠ get_default_integration_method (consts.after [.default_tol_integral (1 / 10 ^ 12)]) := by
  rw [C06_default_method]
  simp only [get_default_integration_method, ne_eq, Integral.G7K15.injEq, and_true]
  have : (consts.after [.default_tol_integral (1 / 10 ^ 12 : ℝ)]).tol_integral = 1 / 10 ^ 12 := by
    simp [consts.after, consts.run, consts.Setter.call, consts.set_default_tol_integral,
      consts.FloatOps.gt0]
  rw [this]
  norm_num

/-! ### C42 -/

/-- **C42**: `gluon::thermal::zero_momentum`. -/
theorem C42_gluon_thermal_zero_momentum (ig : Integrator) :
    (∀ (om : T) (m : ℝ) (beta : ℝ) (integral : Integral ℝ), gluon.thermal.zero_momentum.polarization_glue_l_thermal_part_landau_w_method ig om m beta integral =
      gluon.thermal.zero_momentum.polarization_glue_t_thermal_part_landau_w_method ig om m beta integral) ∧
    (∀ (k : Consts ℝ) (om : T) (mq : ℝ) (beta : ℝ) (mu : ℝ) (integral : Integral ℝ), gluon.thermal.zero_momentum.polarization_quark_l_thermal_part_landau_w_method ig k om mq beta mu integral =
      gluon.thermal.zero_momentum.polarization_quark_t_thermal_part_landau_w_method ig k om mq beta mu integral) ∧
    (∀ (k : Consts ℝ) (om : T) (mq : ℝ) (mu : ℝ) (integral : Integral ℝ), gluon.thermal.zero_momentum.polarization_quark_l_thermal_part_zero_temp_landau_w_method ig k om mq mu integral =
      gluon.thermal.zero_momentum.polarization_quark_t_thermal_part_zero_temp_landau_w_method ig k om mq mu integral) ∧
    (∀ (k : Consts ℝ) (om : T) (m : ℝ) (beta : ℝ), gluon.thermal.zero_momentum.polarization_glue_l_thermal_part_landau ig k om m beta =
      gluon.thermal.zero_momentum.polarization_glue_t_thermal_part_landau ig k om m beta) ∧
    (∀ (k : Consts ℝ) (om : T) (mq : ℝ) (beta : ℝ) (mu : ℝ), gluon.thermal.zero_momentum.polarization_quark_l_thermal_part_landau ig k om mq beta mu =
      gluon.thermal.zero_momentum.polarization_quark_t_thermal_part_landau ig k om mq beta mu) ∧
    (∀ (k : Consts ℝ) (om : T) (mq : ℝ) (mu : ℝ), gluon.thermal.zero_momentum.polarization_quark_l_thermal_part_zero_temp_landau ig k om mq mu =
      gluon.thermal.zero_momentum.polarization_quark_t_thermal_part_zero_temp_landau ig k om mq mu) := by
  refine ⟨?_, ?_, ?_, ?_, ?_, ?_⟩ <;> intros <;>
    simp only [gluon.thermal.zero_momentum.polarization_glue_l_thermal_part_landau_w_method, gluon.thermal.zero_momentum.polarization_glue_t_thermal_part_landau_w_method, gluon.thermal.zero_momentum.polarization_quark_l_thermal_part_landau_w_method, gluon.thermal.zero_momentum.polarization_quark_t_thermal_part_landau_w_method, gluon.thermal.zero_momentum.polarization_quark_l_thermal_part_zero_temp_landau_w_method, gluon.thermal.zero_momentum.polarization_quark_t_thermal_part_zero_temp_landau_w_method, gluon.thermal.zero_momentum.polarization_glue_l_thermal_part_landau, gluon.thermal.zero_momentum.polarization_glue_t_thermal_part_landau, gluon.thermal.zero_momentum.polarization_quark_l_thermal_part_landau, gluon.thermal.zero_momentum.polarization_quark_t_thermal_part_landau, gluon.thermal.zero_momentum.polarization_quark_l_thermal_part_zero_temp_landau, gluon.thermal.zero_momentum.polarization_quark_t_thermal_part_zero_temp_landau, gluon.thermal.zero_momentum.polarization_quark_t_thermal_part_landau_i, gluon.thermal.zero_momentum.polarization_quark_t_thermal_part_zero_temp_landau_i, gluon.thermal.zero_momentum.polarization_glue_t_thermal_part_landau_i]

/-- **C42**: `ym::thermal::zero_momentum::gluon`. -/
theorem C42_ym_thermal_zero_momentum_gluon (ig : Integrator) :
    (∀ (k : Consts ℝ) (om : T) (m : ℝ) (beta : ℝ) (f0 : ℝ), ym.thermal.zero_momentum.gluon.dressing_l_inv_landau ig k om m beta f0 =
      ym.thermal.zero_momentum.gluon.dressing_t_inv_landau ig k om m beta f0) ∧
    (∀ (k : Consts ℝ) (om : T) (m : ℝ) (beta : ℝ) (f0 : ℝ), ym.thermal.zero_momentum.gluon.dressing_l_landau ig k om m beta f0 =
      ym.thermal.zero_momentum.gluon.dressing_t_landau ig k om m beta f0) ∧
    (∀ (k : Consts ℝ) (om : T) (m : ℝ) (beta : ℝ) (f0 : ℝ), ym.thermal.zero_momentum.gluon.propagator_l_landau ig k om m beta f0 =
      ym.thermal.zero_momentum.gluon.propagator_t_landau ig k om m beta f0) := by
  refine ⟨?_, ?_, ?_⟩ <;> intros <;>
    simp only [ym.thermal.zero_momentum.gluon.dressing_l_inv_landau, ym.thermal.zero_momentum.gluon.dressing_t_inv_landau, ym.thermal.zero_momentum.gluon.dressing_l_landau, ym.thermal.zero_momentum.gluon.dressing_t_landau, ym.thermal.zero_momentum.gluon.propagator_l_landau, ym.thermal.zero_momentum.gluon.propagator_t_landau, C42_gluon_thermal_zero_momentum]

/-- **C42**: `qcd::thermal::zero_momentum::gluon`. -/
theorem C42_qcd_thermal_zero_momentum_gluon (ig : Integrator) :
    (∀ (k : Consts ℝ) (om : T) (m : ℝ) (mq : ℝ) (beta : ℝ) (mu : ℝ) (f0 : ℝ), qcd.thermal.zero_momentum.gluon.dressing_l_inv_landau ig k om m mq beta mu f0 =
      qcd.thermal.zero_momentum.gluon.dressing_t_inv_landau ig k om m mq beta mu f0) ∧
    (∀ (k : Consts ℝ) (om : T) (m : ℝ) (mq : ℝ) (beta : ℝ) (mu : ℝ) (f0 : ℝ), qcd.thermal.zero_momentum.gluon.dressing_l_landau ig k om m mq beta mu f0 =
      qcd.thermal.zero_momentum.gluon.dressing_t_landau ig k om m mq beta mu f0) ∧
    (∀ (k : Consts ℝ) (om : T) (m : ℝ) (mq : ℝ) (beta : ℝ) (mu : ℝ) (f0 : ℝ), qcd.thermal.zero_momentum.gluon.propagator_l_landau ig k om m mq beta mu f0 =
      qcd.thermal.zero_momentum.gluon.propagator_t_landau ig k om m mq beta mu f0) ∧
    (∀ (k : Consts ℝ) (om : T) (m : ℝ) (mq : ℝ) (mu : ℝ) (f0 : ℝ), qcd.thermal.zero_momentum.gluon.dressing_l_inv_zero_temp_landau ig k om m mq mu f0 =
      qcd.thermal.zero_momentum.gluon.dressing_t_inv_zero_temp_landau ig k om m mq mu f0) ∧
    (∀ (k : Consts ℝ) (om : T) (m : ℝ) (mq : ℝ) (mu : ℝ) (f0 : ℝ), qcd.thermal.zero_momentum.gluon.dressing_l_zero_temp_landau ig k om m mq mu f0 =
      qcd.thermal.zero_momentum.gluon.dressing_t_zero_temp_landau ig k om m mq mu f0) ∧
    (∀ (k : Consts ℝ) (om : T) (m : ℝ) (mq : ℝ) (mu : ℝ) (f0 : ℝ), qcd.thermal.zero_momentum.gluon.propagator_l_zero_temp_landau ig k om m mq mu f0 =
      qcd.thermal.zero_momentum.gluon.propagator_t_zero_temp_landau ig k om m mq mu f0) ∧
    (∀ (k : Consts ℝ) (om : T) (beta : ℝ) (mu : ℝ) (f0 : ℝ) (config : FieldConfig), qcd.thermal.zero_momentum.gluon.dressing_l_inv_landau_w_field_config ig k om beta mu f0 config =
      qcd.thermal.zero_momentum.gluon.dressing_t_inv_landau_w_field_config ig k om beta mu f0 config) ∧
    (∀ (k : Consts ℝ) (om : T) (beta : ℝ) (mu : ℝ) (f0 : ℝ) (config : FieldConfig), qcd.thermal.zero_momentum.gluon.dressing_l_landau_w_field_config ig k om beta mu f0 config =
      qcd.thermal.zero_momentum.gluon.dressing_t_landau_w_field_config ig k om beta mu f0 config) ∧
    (∀ (k : Consts ℝ) (om : T) (beta : ℝ) (mu : ℝ) (f0 : ℝ) (config : FieldConfig), qcd.thermal.zero_momentum.gluon.propagator_l_landau_w_field_config ig k om beta mu f0 config =
      qcd.thermal.zero_momentum.gluon.propagator_t_landau_w_field_config ig k om beta mu f0 config) ∧
    (∀ (k : Consts ℝ) (om : T) (mu : ℝ) (f0 : ℝ) (config : FieldConfig), qcd.thermal.zero_momentum.gluon.dressing_l_inv_zero_temp_landau_w_field_config ig k om mu f0 config =
      qcd.thermal.zero_momentum.gluon.dressing_t_inv_zero_temp_landau_w_field_config ig k om mu f0 config) ∧
    (∀ (k : Consts ℝ) (om : T) (mu : ℝ) (f0 : ℝ) (config : FieldConfig), qcd.thermal.zero_momentum.gluon.dressing_l_zero_temp_landau_w_field_config ig k om mu f0 config =
      qcd.thermal.zero_momentum.gluon.dressing_t_zero_temp_landau_w_field_config ig k om mu f0 config) ∧
    (∀ (k : Consts ℝ) (om : T) (mu : ℝ) (f0 : ℝ) (config : FieldConfig), qcd.thermal.zero_momentum.gluon.propagator_l_zero_temp_landau_w_field_config ig k om mu f0 config =
      qcd.thermal.zero_momentum.gluon.propagator_t_zero_temp_landau_w_field_config ig k om mu f0 config) := by
  refine ⟨?_, ?_, ?_, ?_, ?_, ?_, ?_, ?_, ?_, ?_, ?_, ?_⟩ <;> intros <;>
    simp only [qcd.thermal.zero_momentum.gluon.dressing_l_inv_landau, qcd.thermal.zero_momentum.gluon.dressing_t_inv_landau, qcd.thermal.zero_momentum.gluon.dressing_l_landau, qcd.thermal.zero_momentum.gluon.dressing_t_landau, qcd.thermal.zero_momentum.gluon.propagator_l_landau, qcd.thermal.zero_momentum.gluon.propagator_t_landau, qcd.thermal.zero_momentum.gluon.dressing_l_inv_zero_temp_landau, qcd.thermal.zero_momentum.gluon.dressing_t_inv_zero_temp_landau, qcd.thermal.zero_momentum.gluon.dressing_l_zero_temp_landau, qcd.thermal.zero_momentum.gluon.dressing_t_zero_temp_landau, qcd.thermal.zero_momentum.gluon.propagator_l_zero_temp_landau, qcd.thermal.zero_momentum.gluon.propagator_t_zero_temp_landau, qcd.thermal.zero_momentum.gluon.dressing_l_inv_landau_w_field_config, qcd.thermal.zero_momentum.gluon.dressing_t_inv_landau_w_field_config, qcd.thermal.zero_momentum.gluon.dressing_l_landau_w_field_config, qcd.thermal.zero_momentum.gluon.dressing_t_landau_w_field_config, qcd.thermal.zero_momentum.gluon.propagator_l_landau_w_field_config, qcd.thermal.zero_momentum.gluon.propagator_t_landau_w_field_config, qcd.thermal.zero_momentum.gluon.dressing_l_inv_zero_temp_landau_w_field_config, qcd.thermal.zero_momentum.gluon.dressing_t_inv_zero_temp_landau_w_field_config, qcd.thermal.zero_momentum.gluon.dressing_l_zero_temp_landau_w_field_config, qcd.thermal.zero_momentum.gluon.dressing_t_zero_temp_landau_w_field_config, qcd.thermal.zero_momentum.gluon.propagator_l_zero_temp_landau_w_field_config, qcd.thermal.zero_momentum.gluon.propagator_t_zero_temp_landau_w_field_config, C42_gluon_thermal_zero_momentum]

/-! ### C43 -/

theorem consistent_aux1 {F : Type} [Field F] {s z : F} (hs : ¬ s = 0) (h : z ≠ 0) : s⁻¹ * z⁻¹ * s * z = 1 := by
  rw [mul_right_comm s⁻¹, inv_mul_cancel₀ hs, one_mul, inv_mul_cancel₀ h]

theorem consistent_aux2 {F : Type} [Field F] {s z : F} (hs : ¬ s = 0) (h : z ≠ 0) : z⁻¹ / s * s * z = 1 := by
  rw [div_mul_cancel₀ _ hs, inv_mul_cancel₀ h]

/-- **C43**: `ym::thermal::ghost`: dressing × inverse dressing = 1 and propagator × (om² + p²) × inverse dressing = 1. -/
theorem C43_ym_thermal_ghost (ig : Integrator) (k : Consts ℝ) :
    (∀ (om : ℝ) (p : ℝ) (m : ℝ) (beta : ℝ) (g0 : ℝ), Consistent (toC om ^ 2 + (p : ℂ) ^ 2)
      (ym.thermal.ghost.dressing_inv_landau ig k om p m beta g0) (ym.thermal.ghost.dressing_landau ig k om p m beta g0)
      (ym.thermal.ghost.propagator_landau ig k om p m beta g0)) := by
  intros <;>
    · intro h
      refine ⟨?_, fun hs => ?_⟩
      · simp only [ym.thermal.ghost.dressing_landau, ym.thermal.ghost.propagator_landau, ofR_complex, Complex.ofReal_one, one_div]
        exact inv_mul_cancel₀ h
      · simp only [ym.thermal.ghost.dressing_landau, ym.thermal.ghost.propagator_landau, map_inv₀, map_add, map_mul, toC_ofR, ofR_mul, ofR_one, one_div,
          Complex.ofReal_mul, ofR_complex, Complex.ofReal_one, toC_real, Complex.ofReal_inv, Complex.ofReal_add]
        simp only [toC_real, pow_two, ne_eq] at hs ⊢
        first | exact consistent_aux1 hs h | exact consistent_aux2 hs h

/-- **C43**: `ym::thermal::gluon`: dressing × inverse dressing = 1 and propagator × (om² + p²) × inverse dressing = 1. -/
theorem C43_ym_thermal_gluon (ig : Integrator) (k : Consts ℝ) :
    (∀ (om : T) (p : ℝ) (m : ℝ) (beta : ℝ) (f0 : ℝ), Consistent (toC om ^ 2 + (p : ℂ) ^ 2)
      (ym.thermal.gluon.dressing_l_inv_landau ig k om p m beta f0) (ym.thermal.gluon.dressing_l_landau ig k om p m beta f0)
      (ym.thermal.gluon.propagator_l_landau ig k om p m beta f0)) ∧
    (∀ (om : T) (p : ℝ) (m : ℝ) (beta : ℝ) (f0 : ℝ), Consistent (toC om ^ 2 + (p : ℂ) ^ 2)
      (ym.thermal.gluon.dressing_t_inv_landau ig k om p m beta f0) (ym.thermal.gluon.dressing_t_landau ig k om p m beta f0)
      (ym.thermal.gluon.propagator_t_landau ig k om p m beta f0)) := by
  refine ⟨?_, ?_⟩ <;> intros <;>
    · intro h
      refine ⟨?_, fun hs => ?_⟩
      · simp only [ym.thermal.gluon.dressing_l_landau, ym.thermal.gluon.propagator_l_landau, ym.thermal.gluon.dressing_t_landau, ym.thermal.gluon.propagator_t_landau, ofR_complex, Complex.ofReal_one, one_div]
        exact inv_mul_cancel₀ h
      · simp only [ym.thermal.gluon.dressing_l_landau, ym.thermal.gluon.propagator_l_landau, ym.thermal.gluon.dressing_t_landau, ym.thermal.gluon.propagator_t_landau, map_inv₀, map_add, map_mul, toC_ofR, ofR_mul, ofR_one, one_div,
          Complex.ofReal_mul, ofR_complex, Complex.ofReal_one, toC_real, Complex.ofReal_inv, Complex.ofReal_add]
        simp only [toC_real, pow_two, ne_eq] at hs ⊢
        first | exact consistent_aux1 hs h | exact consistent_aux2 hs h

/-- **C43**: `ym::thermal::zero_matsubara::ghost`: dressing × inverse dressing = 1 and propagator × (om² + p²) × inverse dressing = 1. -/
theorem C43_ym_thermal_zero_matsubara_ghost (ig : Integrator) (k : Consts ℝ) :
    (∀ (p : ℝ) (m : ℝ) (beta : ℝ) (g0 : ℝ), Consistent (p ^ 2)
      (ym.thermal.zero_matsubara.ghost.dressing_inv_landau ig k p m beta g0) (ym.thermal.zero_matsubara.ghost.dressing_landau ig k p m beta g0)
      (ym.thermal.zero_matsubara.ghost.propagator_landau ig k p m beta g0)) := by
  intros <;>
    · intro h
      refine ⟨?_, fun hs => ?_⟩
      · simp only [ym.thermal.zero_matsubara.ghost.dressing_landau, ym.thermal.zero_matsubara.ghost.propagator_landau, ofR_complex, Complex.ofReal_one, one_div]
        exact inv_mul_cancel₀ h
      · simp only [ym.thermal.zero_matsubara.ghost.dressing_landau, ym.thermal.zero_matsubara.ghost.propagator_landau, map_inv₀, map_add, map_mul, toC_ofR, ofR_mul, ofR_one, one_div,
          Complex.ofReal_mul, ofR_complex, Complex.ofReal_one, toC_real, Complex.ofReal_inv, Complex.ofReal_add]
        simp only [toC_real, pow_two, ne_eq] at hs ⊢
        first | exact consistent_aux1 hs h | exact consistent_aux2 hs h

/-- **C43**: `ym::thermal::zero_matsubara::gluon`: dressing × inverse dressing = 1 and propagator × (om² + p²) × inverse dressing = 1. -/
theorem C43_ym_thermal_zero_matsubara_gluon (ig : Integrator) (k : Consts ℝ) :
    (∀ (p : ℝ) (m : ℝ) (beta : ℝ) (f0 : ℝ), Consistent (p ^ 2)
      (ym.thermal.zero_matsubara.gluon.dressing_l_inv_landau ig k p m beta f0) (ym.thermal.zero_matsubara.gluon.dressing_l_landau ig k p m beta f0)
      (ym.thermal.zero_matsubara.gluon.propagator_l_landau ig k p m beta f0)) ∧
    (∀ (p : ℝ) (m : ℝ) (beta : ℝ) (f0 : ℝ), Consistent (p ^ 2)
      (ym.thermal.zero_matsubara.gluon.dressing_t_inv_landau ig k p m beta f0) (ym.thermal.zero_matsubara.gluon.dressing_t_landau ig k p m beta f0)
      (ym.thermal.zero_matsubara.gluon.propagator_t_landau ig k p m beta f0)) := by
  refine ⟨?_, ?_⟩ <;> intros <;>
    · intro h
      refine ⟨?_, fun hs => ?_⟩
      · simp only [ym.thermal.zero_matsubara.gluon.dressing_l_landau, ym.thermal.zero_matsubara.gluon.propagator_l_landau, ym.thermal.zero_matsubara.gluon.dressing_t_landau, ym.thermal.zero_matsubara.gluon.propagator_t_landau, ofR_complex, Complex.ofReal_one, one_div]
        exact inv_mul_cancel₀ h
      · simp only [ym.thermal.zero_matsubara.gluon.dressing_l_landau, ym.thermal.zero_matsubara.gluon.propagator_l_landau, ym.thermal.zero_matsubara.gluon.dressing_t_landau, ym.thermal.zero_matsubara.gluon.propagator_t_landau, map_inv₀, map_add, map_mul, toC_ofR, ofR_mul, ofR_one, one_div,
          Complex.ofReal_mul, ofR_complex, Complex.ofReal_one, toC_real, Complex.ofReal_inv, Complex.ofReal_add]
        simp only [toC_real, pow_two, ne_eq] at hs ⊢
        first | exact consistent_aux1 hs h | exact consistent_aux2 hs h

/-- **C43**: `ym::thermal::zero_momentum::ghost`: dressing × inverse dressing = 1 and propagator × (om² + p²) × inverse dressing = 1. -/
theorem C43_ym_thermal_zero_momentum_ghost (ig : Integrator) (k : Consts ℝ) :
    (∀ (om : T) (m : ℝ) (beta : ℝ) (g0 : ℝ), Consistent (toC om ^ 2)
      (ym.thermal.zero_momentum.ghost.dressing_inv_landau ig k om m beta g0) (ym.thermal.zero_momentum.ghost.dressing_landau ig k om m beta g0)
      (ym.thermal.zero_momentum.ghost.propagator_landau ig k om m beta g0)) := by
  intros <;>
    · intro h
      refine ⟨?_, fun hs => ?_⟩
      · simp only [ym.thermal.zero_momentum.ghost.dressing_landau, ym.thermal.zero_momentum.ghost.propagator_landau, ofR_complex, Complex.ofReal_one, one_div]
        exact inv_mul_cancel₀ h
      · simp only [ym.thermal.zero_momentum.ghost.dressing_landau, ym.thermal.zero_momentum.ghost.propagator_landau, map_inv₀, map_add, map_mul, toC_ofR, ofR_mul, ofR_one, one_div,
          Complex.ofReal_mul, ofR_complex, Complex.ofReal_one, toC_real, Complex.ofReal_inv, Complex.ofReal_add]
        simp only [toC_real, pow_two, ne_eq] at hs ⊢
        first | exact consistent_aux1 hs h | exact consistent_aux2 hs h

/-- **C43**: `ym::thermal::zero_momentum::gluon`: dressing × inverse dressing = 1 and propagator × (om² + p²) × inverse dressing = 1. -/
theorem C43_ym_thermal_zero_momentum_gluon (ig : Integrator) (k : Consts ℝ) :
    (∀ (om : T) (m : ℝ) (beta : ℝ) (f0 : ℝ), Consistent (toC om ^ 2)
      (ym.thermal.zero_momentum.gluon.dressing_l_inv_landau ig k om m beta f0) (ym.thermal.zero_momentum.gluon.dressing_l_landau ig k om m beta f0)
      (ym.thermal.zero_momentum.gluon.propagator_l_landau ig k om m beta f0)) ∧
    (∀ (om : T) (m : ℝ) (beta : ℝ) (f0 : ℝ), Consistent (toC om ^ 2)
      (ym.thermal.zero_momentum.gluon.dressing_t_inv_landau ig k om m beta f0) (ym.thermal.zero_momentum.gluon.dressing_t_landau ig k om m beta f0)
      (ym.thermal.zero_momentum.gluon.propagator_t_landau ig k om m beta f0)) := by
  refine ⟨?_, ?_⟩ <;> intros <;>
    · intro h
      refine ⟨?_, fun hs => ?_⟩
      · simp only [ym.thermal.zero_momentum.gluon.dressing_l_landau, ym.thermal.zero_momentum.gluon.propagator_l_landau, ym.thermal.zero_momentum.gluon.dressing_t_landau, ym.thermal.zero_momentum.gluon.propagator_t_landau, ofR_complex, Complex.ofReal_one, one_div]
        exact inv_mul_cancel₀ h
      · simp only [ym.thermal.zero_momentum.gluon.dressing_l_landau, ym.thermal.zero_momentum.gluon.propagator_l_landau, ym.thermal.zero_momentum.gluon.dressing_t_landau, ym.thermal.zero_momentum.gluon.propagator_t_landau, map_inv₀, map_add, map_mul, toC_ofR, ofR_mul, ofR_one, one_div,
          Complex.ofReal_mul, ofR_complex, Complex.ofReal_one, toC_real, Complex.ofReal_inv, Complex.ofReal_add]
        simp only [toC_real, pow_two, ne_eq] at hs ⊢
        first | exact consistent_aux1 hs h | exact consistent_aux2 hs h

/-- **C43**: `qcd::thermal::gluon`: dressing × inverse dressing = 1 and propagator × (om² + p²) × inverse dressing = 1. -/
theorem C43_qcd_thermal_gluon (ig : Integrator) (k : Consts ℝ) :
    (∀ (om : T) (p : ℝ) (m : ℝ) (mq : ℝ) (beta : ℝ) (mu : ℝ) (f0 : ℝ), Consistent (toC om ^ 2 + (p : ℂ) ^ 2)
      (qcd.thermal.gluon.dressing_l_inv_landau ig k om p m mq beta mu f0) (qcd.thermal.gluon.dressing_l_landau ig k om p m mq beta mu f0)
      (qcd.thermal.gluon.propagator_l_landau ig k om p m mq beta mu f0)) ∧
    (∀ (om : T) (p : ℝ) (m : ℝ) (mq : ℝ) (beta : ℝ) (mu : ℝ) (f0 : ℝ), Consistent (toC om ^ 2 + (p : ℂ) ^ 2)
      (qcd.thermal.gluon.dressing_t_inv_landau ig k om p m mq beta mu f0) (qcd.thermal.gluon.dressing_t_landau ig k om p m mq beta mu f0)
      (qcd.thermal.gluon.propagator_t_landau ig k om p m mq beta mu f0)) ∧
    (∀ (om : T) (p : ℝ) (m : ℝ) (mq : ℝ) (mu : ℝ) (f0 : ℝ), Consistent (toC om ^ 2 + (p : ℂ) ^ 2)
      (qcd.thermal.gluon.dressing_l_inv_zero_temp_landau ig k om p m mq mu f0) (qcd.thermal.gluon.dressing_l_zero_temp_landau ig k om p m mq mu f0)
      (qcd.thermal.gluon.propagator_l_zero_temp_landau ig k om p m mq mu f0)) ∧
    (∀ (om : T) (p : ℝ) (m : ℝ) (mq : ℝ) (mu : ℝ) (f0 : ℝ), Consistent (toC om ^ 2 + (p : ℂ) ^ 2)
      (qcd.thermal.gluon.dressing_t_inv_zero_temp_landau ig k om p m mq mu f0) (qcd.thermal.gluon.dressing_t_zero_temp_landau ig k om p m mq mu f0)
      (qcd.thermal.gluon.propagator_t_zero_temp_landau ig k om p m mq mu f0)) ∧
    (∀ (om : T1) (p : T2) (beta : ℝ) (mu : ℝ) (f0 : ℝ) (config : FieldConfig), Consistent (toC om ^ 2 + toC p ^ 2)
      (qcd.thermal.gluon.dressing_l_inv_landau_w_field_config ig k om p beta mu f0 config) (qcd.thermal.gluon.dressing_l_landau_w_field_config ig k om p beta mu f0 config)
      (qcd.thermal.gluon.propagator_l_landau_w_field_config ig k om p beta mu f0 config)) ∧
    (∀ (om : T) (p : ℝ) (beta : ℝ) (mu : ℝ) (f0 : ℝ) (config : FieldConfig), Consistent (toC om ^ 2 + (p : ℂ) ^ 2)
      (qcd.thermal.gluon.dressing_t_inv_landau_w_field_config ig k om p beta mu f0 config) (qcd.thermal.gluon.dressing_t_landau_w_field_config ig k om p beta mu f0 config)
      (qcd.thermal.gluon.propagator_t_landau_w_field_config ig k om p beta mu f0 config)) ∧
    (∀ (om : T1) (p : T2) (mu : ℝ) (f0 : ℝ) (config : FieldConfig), Consistent (toC om ^ 2 + toC p ^ 2)
      (qcd.thermal.gluon.dressing_l_inv_zero_temp_landau_w_field_config ig k om p mu f0 config) (qcd.thermal.gluon.dressing_l_zero_temp_landau_w_field_config ig k om p mu f0 config)
      (qcd.thermal.gluon.propagator_l_zero_temp_landau_w_field_config ig k om p mu f0 config)) ∧
    (∀ (om : T) (p : ℝ) (mu : ℝ) (f0 : ℝ) (config : FieldConfig), Consistent (toC om ^ 2 + (p : ℂ) ^ 2)
      (qcd.thermal.gluon.dressing_t_inv_zero_temp_landau_w_field_config ig k om p mu f0 config) (qcd.thermal.gluon.dressing_t_zero_temp_landau_w_field_config ig k om p mu f0 config)
      (qcd.thermal.gluon.propagator_t_zero_temp_landau_w_field_config ig k om p mu f0 config)) := by
  refine ⟨?_, ?_, ?_, ?_, ?_, ?_, ?_, ?_⟩ <;> intros <;>
    · intro h
      refine ⟨?_, fun hs => ?_⟩
      · simp only [qcd.thermal.gluon.dressing_l_landau, qcd.thermal.gluon.propagator_l_landau, qcd.thermal.gluon.dressing_t_landau, qcd.thermal.gluon.propagator_t_landau, qcd.thermal.gluon.dressing_l_zero_temp_landau, qcd.thermal.gluon.propagator_l_zero_temp_landau, qcd.thermal.gluon.dressing_t_zero_temp_landau, qcd.thermal.gluon.propagator_t_zero_temp_landau, qcd.thermal.gluon.dressing_l_landau_w_field_config, qcd.thermal.gluon.propagator_l_landau_w_field_config, qcd.thermal.gluon.dressing_t_landau_w_field_config, qcd.thermal.gluon.propagator_t_landau_w_field_config, qcd.thermal.gluon.dressing_l_zero_temp_landau_w_field_config, qcd.thermal.gluon.propagator_l_zero_temp_landau_w_field_config, qcd.thermal.gluon.dressing_t_zero_temp_landau_w_field_config, qcd.thermal.gluon.propagator_t_zero_temp_landau_w_field_config, ofR_complex, Complex.ofReal_one, one_div]
        exact inv_mul_cancel₀ h
      · simp only [qcd.thermal.gluon.dressing_l_landau, qcd.thermal.gluon.propagator_l_landau, qcd.thermal.gluon.dressing_t_landau, qcd.thermal.gluon.propagator_t_landau, qcd.thermal.gluon.dressing_l_zero_temp_landau, qcd.thermal.gluon.propagator_l_zero_temp_landau, qcd.thermal.gluon.dressing_t_zero_temp_landau, qcd.thermal.gluon.propagator_t_zero_temp_landau, qcd.thermal.gluon.dressing_l_landau_w_field_config, qcd.thermal.gluon.propagator_l_landau_w_field_config, qcd.thermal.gluon.dressing_t_landau_w_field_config, qcd.thermal.gluon.propagator_t_landau_w_field_config, qcd.thermal.gluon.dressing_l_zero_temp_landau_w_field_config, qcd.thermal.gluon.propagator_l_zero_temp_landau_w_field_config, qcd.thermal.gluon.dressing_t_zero_temp_landau_w_field_config, qcd.thermal.gluon.propagator_t_zero_temp_landau_w_field_config, map_inv₀, map_add, map_mul, toC_ofR, ofR_mul, ofR_one, one_div,
          Complex.ofReal_mul, ofR_complex, Complex.ofReal_one, toC_real, Complex.ofReal_inv, Complex.ofReal_add]
        simp only [toC_real, pow_two, ne_eq] at hs ⊢
        first | exact consistent_aux1 hs h | exact consistent_aux2 hs h

/-- **C43**: `qcd::thermal::zero_matsubara::gluon`: dressing × inverse dressing = 1 and propagator × (om² + p²) × inverse dressing = 1. -/
theorem C43_qcd_thermal_zero_matsubara_gluon (ig : Integrator) (k : Consts ℝ) :
    (∀ (p : ℝ) (m : ℝ) (mq : ℝ) (beta : ℝ) (mu : ℝ) (f0 : ℝ), Consistent (p ^ 2)
      (qcd.thermal.zero_matsubara.gluon.dressing_l_inv_landau ig k p m mq beta mu f0) (qcd.thermal.zero_matsubara.gluon.dressing_l_landau ig k p m mq beta mu f0)
      (qcd.thermal.zero_matsubara.gluon.propagator_l_landau ig k p m mq beta mu f0)) ∧
    (∀ (p : ℝ) (m : ℝ) (mq : ℝ) (beta : ℝ) (mu : ℝ) (f0 : ℝ), Consistent (p ^ 2)
      (qcd.thermal.zero_matsubara.gluon.dressing_t_inv_landau ig k p m mq beta mu f0) (qcd.thermal.zero_matsubara.gluon.dressing_t_landau ig k p m mq beta mu f0)
      (qcd.thermal.zero_matsubara.gluon.propagator_t_landau ig k p m mq beta mu f0)) ∧
    (∀ (p : ℝ) (m : ℝ) (mq : ℝ) (mu : ℝ) (f0 : ℝ), Consistent (p ^ 2)
      (qcd.thermal.zero_matsubara.gluon.dressing_l_inv_zero_temp_landau ig k p m mq mu f0) (qcd.thermal.zero_matsubara.gluon.dressing_l_zero_temp_landau ig k p m mq mu f0)
      (qcd.thermal.zero_matsubara.gluon.propagator_l_zero_temp_landau ig k p m mq mu f0)) ∧
    (∀ (p : ℝ) (m : ℝ) (mq : ℝ) (mu : ℝ) (f0 : ℝ), Consistent (p ^ 2)
      (qcd.thermal.zero_matsubara.gluon.dressing_t_inv_zero_temp_landau ig k p m mq mu f0) (qcd.thermal.zero_matsubara.gluon.dressing_t_zero_temp_landau ig k p m mq mu f0)
      (qcd.thermal.zero_matsubara.gluon.propagator_t_zero_temp_landau ig k p m mq mu f0)) ∧
    (∀ (p : ℝ) (beta : ℝ) (mu : ℝ) (f0 : ℝ) (config : FieldConfig), Consistent (p ^ 2)
      (qcd.thermal.zero_matsubara.gluon.dressing_l_inv_landau_w_field_config ig k p beta mu f0 config) (qcd.thermal.zero_matsubara.gluon.dressing_l_landau_w_field_config ig k p beta mu f0 config)
      (qcd.thermal.zero_matsubara.gluon.propagator_l_landau_w_field_config ig k p beta mu f0 config)) ∧
    (∀ (p : ℝ) (beta : ℝ) (mu : ℝ) (f0 : ℝ) (config : FieldConfig), Consistent (p ^ 2)
      (qcd.thermal.zero_matsubara.gluon.dressing_t_inv_landau_w_field_config ig k p beta mu f0 config) (qcd.thermal.zero_matsubara.gluon.dressing_t_landau_w_field_config ig k p beta mu f0 config)
      (qcd.thermal.zero_matsubara.gluon.propagator_t_landau_w_field_config ig k p beta mu f0 config)) ∧
    (∀ (p : ℝ) (mu : ℝ) (f0 : ℝ) (config : FieldConfig), Consistent (p ^ 2)
      (qcd.thermal.zero_matsubara.gluon.dressing_l_inv_zero_temp_landau_w_field_config ig k p mu f0 config) (qcd.thermal.zero_matsubara.gluon.dressing_l_zero_temp_landau_w_field_config ig k p mu f0 config)
      (qcd.thermal.zero_matsubara.gluon.propagator_l_zero_temp_landau_w_field_config ig k p mu f0 config)) ∧
    (∀ (p : ℝ) (mu : ℝ) (f0 : ℝ) (config : FieldConfig), Consistent (p ^ 2)
      (qcd.thermal.zero_matsubara.gluon.dressing_t_inv_zero_temp_landau_w_field_config ig k p mu f0 config) (qcd.thermal.zero_matsubara.gluon.dressing_t_zero_temp_landau_w_field_config ig k p mu f0 config)
      (qcd.thermal.zero_matsubara.gluon.propagator_t_zero_temp_landau_w_field_config ig k p mu f0 config)) := by
  refine ⟨?_, ?_, ?_, ?_, ?_, ?_, ?_, ?_⟩ <;> intros <;>
    · intro h
      refine ⟨?_, fun hs => ?_⟩
      · simp only [qcd.thermal.zero_matsubara.gluon.dressing_l_landau, qcd.thermal.zero_matsubara.gluon.propagator_l_landau, qcd.thermal.zero_matsubara.gluon.dressing_t_landau, qcd.thermal.zero_matsubara.gluon.propagator_t_landau, qcd.thermal.zero_matsubara.gluon.dressing_l_zero_temp_landau, qcd.thermal.zero_matsubara.gluon.propagator_l_zero_temp_landau, qcd.thermal.zero_matsubara.gluon.dressing_t_zero_temp_landau, qcd.thermal.zero_matsubara.gluon.propagator_t_zero_temp_landau, qcd.thermal.zero_matsubara.gluon.dressing_l_landau_w_field_config, qcd.thermal.zero_matsubara.gluon.propagator_l_landau_w_field_config, qcd.thermal.zero_matsubara.gluon.dressing_t_landau_w_field_config, qcd.thermal.zero_matsubara.gluon.propagator_t_landau_w_field_config, qcd.thermal.zero_matsubara.gluon.dressing_l_zero_temp_landau_w_field_config, qcd.thermal.zero_matsubara.gluon.propagator_l_zero_temp_landau_w_field_config, qcd.thermal.zero_matsubara.gluon.dressing_t_zero_temp_landau_w_field_config, qcd.thermal.zero_matsubara.gluon.propagator_t_zero_temp_landau_w_field_config, ofR_complex, Complex.ofReal_one, one_div]
        exact inv_mul_cancel₀ h
      · simp only [qcd.thermal.zero_matsubara.gluon.dressing_l_landau, qcd.thermal.zero_matsubara.gluon.propagator_l_landau, qcd.thermal.zero_matsubara.gluon.dressing_t_landau, qcd.thermal.zero_matsubara.gluon.propagator_t_landau, qcd.thermal.zero_matsubara.gluon.dressing_l_zero_temp_landau, qcd.thermal.zero_matsubara.gluon.propagator_l_zero_temp_landau, qcd.thermal.zero_matsubara.gluon.dressing_t_zero_temp_landau, qcd.thermal.zero_matsubara.gluon.propagator_t_zero_temp_landau, qcd.thermal.zero_matsubara.gluon.dressing_l_landau_w_field_config, qcd.thermal.zero_matsubara.gluon.propagator_l_landau_w_field_config, qcd.thermal.zero_matsubara.gluon.dressing_t_landau_w_field_config, qcd.thermal.zero_matsubara.gluon.propagator_t_landau_w_field_config, qcd.thermal.zero_matsubara.gluon.dressing_l_zero_temp_landau_w_field_config, qcd.thermal.zero_matsubara.gluon.propagator_l_zero_temp_landau_w_field_config, qcd.thermal.zero_matsubara.gluon.dressing_t_zero_temp_landau_w_field_config, qcd.thermal.zero_matsubara.gluon.propagator_t_zero_temp_landau_w_field_config, map_inv₀, map_add, map_mul, toC_ofR, ofR_mul, ofR_one, one_div,
          Complex.ofReal_mul, ofR_complex, Complex.ofReal_one, toC_real, Complex.ofReal_inv, Complex.ofReal_add]
        simp only [toC_real, pow_two, ne_eq] at hs ⊢
        first | exact consistent_aux1 hs h | exact consistent_aux2 hs h

/-- **C43**: `qcd::thermal::zero_momentum::gluon`: dressing × inverse dressing = 1 and propagator × (om² + p²) × inverse dressing = 1. -/
theorem C43_qcd_thermal_zero_momentum_gluon (ig : Integrator) (k : Consts ℝ) :
    (∀ (om : T) (m : ℝ) (mq : ℝ) (beta : ℝ) (mu : ℝ) (f0 : ℝ), Consistent (toC om ^ 2)
      (qcd.thermal.zero_momentum.gluon.dressing_l_inv_landau ig k om m mq beta mu f0) (qcd.thermal.zero_momentum.gluon.dressing_l_landau ig k om m mq beta mu f0)
      (qcd.thermal.zero_momentum.gluon.propagator_l_landau ig k om m mq beta mu f0)) ∧
    (∀ (om : T) (m : ℝ) (mq : ℝ) (beta : ℝ) (mu : ℝ) (f0 : ℝ), Consistent (toC om ^ 2)
      (qcd.thermal.zero_momentum.gluon.dressing_t_inv_landau ig k om m mq beta mu f0) (qcd.thermal.zero_momentum.gluon.dressing_t_landau ig k om m mq beta mu f0)
      (qcd.thermal.zero_momentum.gluon.propagator_t_landau ig k om m mq beta mu f0)) ∧
    (∀ (om : T) (m : ℝ) (mq : ℝ) (mu : ℝ) (f0 : ℝ), Consistent (toC om ^ 2)
      (qcd.thermal.zero_momentum.gluon.dressing_l_inv_zero_temp_landau ig k om m mq mu f0) (qcd.thermal.zero_momentum.gluon.dressing_l_zero_temp_landau ig k om m mq mu f0)
      (qcd.thermal.zero_momentum.gluon.propagator_l_zero_temp_landau ig k om m mq mu f0)) ∧
    (∀ (om : T) (m : ℝ) (mq : ℝ) (mu : ℝ) (f0 : ℝ), Consistent (toC om ^ 2)
      (qcd.thermal.zero_momentum.gluon.dressing_t_inv_zero_temp_landau ig k om m mq mu f0) (qcd.thermal.zero_momentum.gluon.dressing_t_zero_temp_landau ig k om m mq mu f0)
      (qcd.thermal.zero_momentum.gluon.propagator_t_zero_temp_landau ig k om m mq mu f0)) ∧
    (∀ (om : T) (beta : ℝ) (mu : ℝ) (f0 : ℝ) (config : FieldConfig), Consistent (toC om ^ 2)
      (qcd.thermal.zero_momentum.gluon.dressing_l_inv_landau_w_field_config ig k om beta mu f0 config) (qcd.thermal.zero_momentum.gluon.dressing_l_landau_w_field_config ig k om beta mu f0 config)
      (qcd.thermal.zero_momentum.gluon.propagator_l_landau_w_field_config ig k om beta mu f0 config)) ∧
    (∀ (om : T) (beta : ℝ) (mu : ℝ) (f0 : ℝ) (config : FieldConfig), Consistent (toC om ^ 2)
      (qcd.thermal.zero_momentum.gluon.dressing_t_inv_landau_w_field_config ig k om beta mu f0 config) (qcd.thermal.zero_momentum.gluon.dressing_t_landau_w_field_config ig k om beta mu f0 config)
      (qcd.thermal.zero_momentum.gluon.propagator_t_landau_w_field_config ig k om beta mu f0 config)) ∧
    (∀ (om : T) (mu : ℝ) (f0 : ℝ) (config : FieldConfig), Consistent (toC om ^ 2)
      (qcd.thermal.zero_momentum.gluon.dressing_l_inv_zero_temp_landau_w_field_config ig k om mu f0 config) (qcd.thermal.zero_momentum.gluon.dressing_l_zero_temp_landau_w_field_config ig k om mu f0 config)
      (qcd.thermal.zero_momentum.gluon.propagator_l_zero_temp_landau_w_field_config ig k om mu f0 config)) ∧
    (∀ (om : T) (mu : ℝ) (f0 : ℝ) (config : FieldConfig), Consistent (toC om ^ 2)
      (qcd.thermal.zero_momentum.gluon.dressing_t_inv_zero_temp_landau_w_field_config ig k om mu f0 config) (qcd.thermal.zero_momentum.gluon.dressing_t_zero_temp_landau_w_field_config ig k om mu f0 config)
      (qcd.thermal.zero_momentum.gluon.propagator_t_zero_temp_landau_w_field_config ig k om mu f0 config)) := by
  refine ⟨?_, ?_, ?_, ?_, ?_, ?_, ?_, ?_⟩ <;> intros <;>
    · intro h
      refine ⟨?_, fun hs => ?_⟩
      · simp only [qcd.thermal.zero_momentum.gluon.dressing_l_landau, qcd.thermal.zero_momentum.gluon.propagator_l_landau, qcd.thermal.zero_momentum.gluon.dressing_t_landau, qcd.thermal.zero_momentum.gluon.propagator_t_landau, qcd.thermal.zero_momentum.gluon.dressing_l_zero_temp_landau, qcd.thermal.zero_momentum.gluon.propagator_l_zero_temp_landau, qcd.thermal.zero_momentum.gluon.dressing_t_zero_temp_landau, qcd.thermal.zero_momentum.gluon.propagator_t_zero_temp_landau, qcd.thermal.zero_momentum.gluon.dressing_l_landau_w_field_config, qcd.thermal.zero_momentum.gluon.propagator_l_landau_w_field_config, qcd.thermal.zero_momentum.gluon.dressing_t_landau_w_field_config, qcd.thermal.zero_momentum.gluon.propagator_t_landau_w_field_config, qcd.thermal.zero_momentum.gluon.dressing_l_zero_temp_landau_w_field_config, qcd.thermal.zero_momentum.gluon.propagator_l_zero_temp_landau_w_field_config, qcd.thermal.zero_momentum.gluon.dressing_t_zero_temp_landau_w_field_config, qcd.thermal.zero_momentum.gluon.propagator_t_zero_temp_landau_w_field_config, ofR_complex, Complex.ofReal_one, one_div]
        exact inv_mul_cancel₀ h
      · simp only [qcd.thermal.zero_momentum.gluon.dressing_l_landau, qcd.thermal.zero_momentum.gluon.propagator_l_landau, qcd.thermal.zero_momentum.gluon.dressing_t_landau, qcd.thermal.zero_momentum.gluon.propagator_t_landau, qcd.thermal.zero_momentum.gluon.dressing_l_zero_temp_landau, qcd.thermal.zero_momentum.gluon.propagator_l_zero_temp_landau, qcd.thermal.zero_momentum.gluon.dressing_t_zero_temp_landau, qcd.thermal.zero_momentum.gluon.propagator_t_zero_temp_landau, qcd.thermal.zero_momentum.gluon.dressing_l_landau_w_field_config, qcd.thermal.zero_momentum.gluon.propagator_l_landau_w_field_config, qcd.thermal.zero_momentum.gluon.dressing_t_landau_w_field_config, qcd.thermal.zero_momentum.gluon.propagator_t_landau_w_field_config, qcd.thermal.zero_momentum.gluon.dressing_l_zero_temp_landau_w_field_config, qcd.thermal.zero_momentum.gluon.propagator_l_zero_temp_landau_w_field_config, qcd.thermal.zero_momentum.gluon.dressing_t_zero_temp_landau_w_field_config, qcd.thermal.zero_momentum.gluon.propagator_t_zero_temp_landau_w_field_config, map_inv₀, map_add, map_mul, toC_ofR, ofR_mul, ofR_one, one_div,
          Complex.ofReal_mul, ofR_complex, Complex.ofReal_one, toC_real, Complex.ofReal_inv, Complex.ofReal_add]
        simp only [toC_real, pow_two, ne_eq] at hs ⊢
        first | exact consistent_aux1 hs h | exact consistent_aux2 hs h

/-! ### C45 -/

theorem fermi_momentum_neg (m mu : ℝ) : fermi_momentum m (-mu) = fermi_momentum m mu := by
  simp [fermi_momentum]

theorem even_mu_gluon_thermal_polarization_quark_l_thermal_part_landau_w_method {T1 : Type} [Num T1] {T2 : Type} [Num T2] (ig : Integrator) (k : Consts ℝ) (om : T1) (p : T2) (mq : ℝ) (beta : ℝ) (mu : ℝ) (integral : Integral ℝ) :
    gluon.thermal.polarization_quark_l_thermal_part_landau_w_method ig k om p mq beta (-mu) integral = gluon.thermal.polarization_quark_l_thermal_part_landau_w_method ig k om p mq beta mu integral := by
  simp only [gluon.thermal.polarization_quark_l_thermal_part_landau_w_method, gluon.thermal.polarization_quark_l_thermal_part_landau_i, (C14_consistency _ _ _).2.1, (C14_consistency_zero_temp _ _).2.1, abs_neg, fermi_momentum_neg]

theorem even_mu_gluon_thermal_polarization_quark_t_thermal_part_landau_w_method {T : Type} [Num T] (ig : Integrator) (k : Consts ℝ) (om : T) (p : ℝ) (mq : ℝ) (beta : ℝ) (mu : ℝ) (integral : Integral ℝ) :
    gluon.thermal.polarization_quark_t_thermal_part_landau_w_method ig k om p mq beta (-mu) integral = gluon.thermal.polarization_quark_t_thermal_part_landau_w_method ig k om p mq beta mu integral := by
  simp only [gluon.thermal.polarization_quark_t_thermal_part_landau_w_method, gluon.thermal.polarization_quark_t_thermal_part_landau_i, (C14_consistency _ _ _).2.1, (C14_consistency_zero_temp _ _).2.1, abs_neg, fermi_momentum_neg]

theorem even_mu_gluon_thermal_polarization_quark_l_thermal_part_zero_temp_landau_w_method {T1 : Type} [Num T1] {T2 : Type} [Num T2] (ig : Integrator) (k : Consts ℝ) (om : T1) (p : T2) (mq : ℝ) (mu : ℝ) (integral : Integral ℝ) :
    gluon.thermal.polarization_quark_l_thermal_part_zero_temp_landau_w_method ig k om p mq (-mu) integral = gluon.thermal.polarization_quark_l_thermal_part_zero_temp_landau_w_method ig k om p mq mu integral := by
  simp only [gluon.thermal.polarization_quark_l_thermal_part_zero_temp_landau_w_method, gluon.thermal.polarization_quark_l_thermal_part_zero_temp_landau_i, (C14_consistency _ _ _).2.1, (C14_consistency_zero_temp _ _).2.1, abs_neg, fermi_momentum_neg]

theorem even_mu_gluon_thermal_polarization_quark_t_thermal_part_zero_temp_landau_w_method {T : Type} [Num T] (ig : Integrator) (k : Consts ℝ) (om : T) (p : ℝ) (mq : ℝ) (mu : ℝ) (integral : Integral ℝ) :
    gluon.thermal.polarization_quark_t_thermal_part_zero_temp_landau_w_method ig k om p mq (-mu) integral = gluon.thermal.polarization_quark_t_thermal_part_zero_temp_landau_w_method ig k om p mq mu integral := by
  simp only [gluon.thermal.polarization_quark_t_thermal_part_zero_temp_landau_w_method, gluon.thermal.polarization_quark_t_thermal_part_zero_temp_landau_i, (C14_consistency _ _ _).2.1, (C14_consistency_zero_temp _ _).2.1, abs_neg, fermi_momentum_neg]

theorem even_mu_gluon_thermal_polarization_quark_l_thermal_part_landau {T1 : Type} [Num T1] {T2 : Type} [Num T2] (ig : Integrator) (k : Consts ℝ) (om : T1) (p : T2) (mq : ℝ) (beta : ℝ) (mu : ℝ) :
    gluon.thermal.polarization_quark_l_thermal_part_landau ig k om p mq beta (-mu) = gluon.thermal.polarization_quark_l_thermal_part_landau ig k om p mq beta mu := by
  simp only [gluon.thermal.polarization_quark_l_thermal_part_landau, gluon.thermal.polarization_quark_l_thermal_part_landau_w_method, gluon.thermal.polarization_quark_l_thermal_part_landau_i, (C14_consistency _ _ _).2.1, (C14_consistency_zero_temp _ _).2.1, abs_neg, fermi_momentum_neg]

theorem even_mu_gluon_thermal_polarization_quark_t_thermal_part_landau {T : Type} [Num T] (ig : Integrator) (k : Consts ℝ) (om : T) (p : ℝ) (mq : ℝ) (beta : ℝ) (mu : ℝ) :
    gluon.thermal.polarization_quark_t_thermal_part_landau ig k om p mq beta (-mu) = gluon.thermal.polarization_quark_t_thermal_part_landau ig k om p mq beta mu := by
  simp only [gluon.thermal.polarization_quark_t_thermal_part_landau, gluon.thermal.polarization_quark_t_thermal_part_landau_w_method, gluon.thermal.polarization_quark_t_thermal_part_landau_i, (C14_consistency _ _ _).2.1, (C14_consistency_zero_temp _ _).2.1, abs_neg, fermi_momentum_neg]

theorem even_mu_gluon_thermal_polarization_quark_l_thermal_part_zero_temp_landau {T1 : Type} [Num T1] {T2 : Type} [Num T2] (ig : Integrator) (k : Consts ℝ) (om : T1) (p : T2) (mq : ℝ) (mu : ℝ) :
    gluon.thermal.polarization_quark_l_thermal_part_zero_temp_landau ig k om p mq (-mu) = gluon.thermal.polarization_quark_l_thermal_part_zero_temp_landau ig k om p mq mu := by
  simp only [gluon.thermal.polarization_quark_l_thermal_part_zero_temp_landau, gluon.thermal.polarization_quark_l_thermal_part_zero_temp_landau_w_method, gluon.thermal.polarization_quark_l_thermal_part_zero_temp_landau_i, (C14_consistency _ _ _).2.1, (C14_consistency_zero_temp _ _).2.1, abs_neg, fermi_momentum_neg]

theorem even_mu_gluon_thermal_polarization_quark_t_thermal_part_zero_temp_landau {T : Type} [Num T] (ig : Integrator) (k : Consts ℝ) (om : T) (p : ℝ) (mq : ℝ) (mu : ℝ) :
    gluon.thermal.polarization_quark_t_thermal_part_zero_temp_landau ig k om p mq (-mu) = gluon.thermal.polarization_quark_t_thermal_part_zero_temp_landau ig k om p mq mu := by
  simp only [gluon.thermal.polarization_quark_t_thermal_part_zero_temp_landau, gluon.thermal.polarization_quark_t_thermal_part_zero_temp_landau_w_method, gluon.thermal.polarization_quark_t_thermal_part_zero_temp_landau_i, (C14_consistency _ _ _).2.1, (C14_consistency_zero_temp _ _).2.1, abs_neg, fermi_momentum_neg]

/-- **C45**: `gluon::thermal` is unchanged by `mu → -mu`. -/
theorem C45_gluon_thermal (ig : Integrator) (k : Consts ℝ) :
    (∀ (om : T1) (p : T2) (mq : ℝ) (beta : ℝ) (mu : ℝ) (integral : Integral ℝ), gluon.thermal.polarization_quark_l_thermal_part_landau_w_method ig k om p mq beta (-mu) integral =
      gluon.thermal.polarization_quark_l_thermal_part_landau_w_method ig k om p mq beta mu integral) ∧
    (∀ (om : T) (p : ℝ) (mq : ℝ) (beta : ℝ) (mu : ℝ) (integral : Integral ℝ), gluon.thermal.polarization_quark_t_thermal_part_landau_w_method ig k om p mq beta (-mu) integral =
      gluon.thermal.polarization_quark_t_thermal_part_landau_w_method ig k om p mq beta mu integral) ∧
    (∀ (om : T1) (p : T2) (mq : ℝ) (mu : ℝ) (integral : Integral ℝ), gluon.thermal.polarization_quark_l_thermal_part_zero_temp_landau_w_method ig k om p mq (-mu) integral =
      gluon.thermal.polarization_quark_l_thermal_part_zero_temp_landau_w_method ig k om p mq mu integral) ∧
    (∀ (om : T) (p : ℝ) (mq : ℝ) (mu : ℝ) (integral : Integral ℝ), gluon.thermal.polarization_quark_t_thermal_part_zero_temp_landau_w_method ig k om p mq (-mu) integral =
      gluon.thermal.polarization_quark_t_thermal_part_zero_temp_landau_w_method ig k om p mq mu integral) ∧
    (∀ (om : T1) (p : T2) (mq : ℝ) (beta : ℝ) (mu : ℝ), gluon.thermal.polarization_quark_l_thermal_part_landau ig k om p mq beta (-mu) =
      gluon.thermal.polarization_quark_l_thermal_part_landau ig k om p mq beta mu) ∧
    (∀ (om : T) (p : ℝ) (mq : ℝ) (beta : ℝ) (mu : ℝ), gluon.thermal.polarization_quark_t_thermal_part_landau ig k om p mq beta (-mu) =
      gluon.thermal.polarization_quark_t_thermal_part_landau ig k om p mq beta mu) ∧
    (∀ (om : T1) (p : T2) (mq : ℝ) (mu : ℝ), gluon.thermal.polarization_quark_l_thermal_part_zero_temp_landau ig k om p mq (-mu) =
      gluon.thermal.polarization_quark_l_thermal_part_zero_temp_landau ig k om p mq mu) ∧
    (∀ (om : T) (p : ℝ) (mq : ℝ) (mu : ℝ), gluon.thermal.polarization_quark_t_thermal_part_zero_temp_landau ig k om p mq (-mu) =
      gluon.thermal.polarization_quark_t_thermal_part_zero_temp_landau ig k om p mq mu) := by
  exact ⟨even_mu_gluon_thermal_polarization_quark_l_thermal_part_landau_w_method ig k, even_mu_gluon_thermal_polarization_quark_t_thermal_part_landau_w_method ig k, even_mu_gluon_thermal_polarization_quark_l_thermal_part_zero_temp_landau_w_method ig k, even_mu_gluon_thermal_polarization_quark_t_thermal_part_zero_temp_landau_w_method ig k, even_mu_gluon_thermal_polarization_quark_l_thermal_part_landau ig k, even_mu_gluon_thermal_polarization_quark_t_thermal_part_landau ig k, even_mu_gluon_thermal_polarization_quark_l_thermal_part_zero_temp_landau ig k, even_mu_gluon_thermal_polarization_quark_t_thermal_part_zero_temp_landau ig k⟩

theorem even_mu_gluon_thermal_zero_matsubara_polarization_quark_l_thermal_part_landau_w_method (ig : Integrator) (k : Consts ℝ) (p : ℝ) (mq : ℝ) (beta : ℝ) (mu : ℝ) (integral : Integral ℝ) :
    gluon.thermal.zero_matsubara.polarization_quark_l_thermal_part_landau_w_method ig k p mq beta (-mu) integral = gluon.thermal.zero_matsubara.polarization_quark_l_thermal_part_landau_w_method ig k p mq beta mu integral := by
  simp only [gluon.thermal.zero_matsubara.polarization_quark_l_thermal_part_landau_w_method, gluon.thermal.zero_matsubara.polarization_quark_l_thermal_part_landau_i, gluon.thermal.polarization_quark_l_thermal_part_landau_i, (C14_consistency _ _ _).2.1, (C14_consistency_zero_temp _ _).2.1, abs_neg, fermi_momentum_neg]

theorem even_mu_gluon_thermal_zero_matsubara_polarization_quark_t_thermal_part_landau_w_method (ig : Integrator) (k : Consts ℝ) (p : ℝ) (mq : ℝ) (beta : ℝ) (mu : ℝ) (integral : Integral ℝ) :
    gluon.thermal.zero_matsubara.polarization_quark_t_thermal_part_landau_w_method ig k p mq beta (-mu) integral = gluon.thermal.zero_matsubara.polarization_quark_t_thermal_part_landau_w_method ig k p mq beta mu integral := by
  simp only [gluon.thermal.zero_matsubara.polarization_quark_t_thermal_part_landau_w_method, gluon.thermal.zero_matsubara.polarization_quark_t_thermal_part_landau_i, gluon.thermal.polarization_quark_t_thermal_part_landau_i, (C14_consistency _ _ _).2.1, (C14_consistency_zero_temp _ _).2.1, abs_neg, fermi_momentum_neg]

theorem even_mu_gluon_thermal_zero_matsubara_polarization_quark_l_thermal_part_zero_temp_landau_w_method (ig : Integrator) (k : Consts ℝ) (p : ℝ) (mq : ℝ) (mu : ℝ) (integral : Integral ℝ) :
    gluon.thermal.zero_matsubara.polarization_quark_l_thermal_part_zero_temp_landau_w_method ig k p mq (-mu) integral = gluon.thermal.zero_matsubara.polarization_quark_l_thermal_part_zero_temp_landau_w_method ig k p mq mu integral := by
  simp only [gluon.thermal.zero_matsubara.polarization_quark_l_thermal_part_zero_temp_landau_w_method, gluon.thermal.zero_matsubara.polarization_quark_l_thermal_part_zero_temp_landau_i, gluon.thermal.polarization_quark_l_thermal_part_zero_temp_landau_i, (C14_consistency _ _ _).2.1, (C14_consistency_zero_temp _ _).2.1, abs_neg, fermi_momentum_neg]

theorem even_mu_gluon_thermal_zero_matsubara_polarization_quark_t_thermal_part_zero_temp_landau_w_method (ig : Integrator) (k : Consts ℝ) (p : ℝ) (mq : ℝ) (mu : ℝ) (integral : Integral ℝ) :
    gluon.thermal.zero_matsubara.polarization_quark_t_thermal_part_zero_temp_landau_w_method ig k p mq (-mu) integral = gluon.thermal.zero_matsubara.polarization_quark_t_thermal_part_zero_temp_landau_w_method ig k p mq mu integral := by
  simp only [gluon.thermal.zero_matsubara.polarization_quark_t_thermal_part_zero_temp_landau_w_method, gluon.thermal.zero_matsubara.polarization_quark_t_thermal_part_zero_temp_landau_i, gluon.thermal.polarization_quark_t_thermal_part_zero_temp_landau_i, (C14_consistency _ _ _).2.1, (C14_consistency_zero_temp _ _).2.1, abs_neg, fermi_momentum_neg]

theorem even_mu_gluon_thermal_zero_matsubara_polarization_quark_l_thermal_part_landau (ig : Integrator) (k : Consts ℝ) (p : ℝ) (mq : ℝ) (beta : ℝ) (mu : ℝ) :
    gluon.thermal.zero_matsubara.polarization_quark_l_thermal_part_landau ig k p mq beta (-mu) = gluon.thermal.zero_matsubara.polarization_quark_l_thermal_part_landau ig k p mq beta mu := by
  simp only [gluon.thermal.zero_matsubara.polarization_quark_l_thermal_part_landau, gluon.thermal.zero_matsubara.polarization_quark_l_thermal_part_landau_w_method, gluon.thermal.zero_matsubara.polarization_quark_l_thermal_part_landau_i, gluon.thermal.polarization_quark_l_thermal_part_landau_i, (C14_consistency _ _ _).2.1, (C14_consistency_zero_temp _ _).2.1, abs_neg, fermi_momentum_neg]

theorem even_mu_gluon_thermal_zero_matsubara_polarization_quark_t_thermal_part_landau (ig : Integrator) (k : Consts ℝ) (p : ℝ) (mq : ℝ) (beta : ℝ) (mu : ℝ) :
    gluon.thermal.zero_matsubara.polarization_quark_t_thermal_part_landau ig k p mq beta (-mu) = gluon.thermal.zero_matsubara.polarization_quark_t_thermal_part_landau ig k p mq beta mu := by
  simp only [gluon.thermal.zero_matsubara.polarization_quark_t_thermal_part_landau, gluon.thermal.zero_matsubara.polarization_quark_t_thermal_part_landau_w_method, gluon.thermal.zero_matsubara.polarization_quark_t_thermal_part_landau_i, gluon.thermal.polarization_quark_t_thermal_part_landau_i, (C14_consistency _ _ _).2.1, (C14_consistency_zero_temp _ _).2.1, abs_neg, fermi_momentum_neg]

theorem even_mu_gluon_thermal_zero_matsubara_polarization_quark_l_thermal_part_zero_temp_landau (ig : Integrator) (k : Consts ℝ) (p : ℝ) (mq : ℝ) (mu : ℝ) :
    gluon.thermal.zero_matsubara.polarization_quark_l_thermal_part_zero_temp_landau ig k p mq (-mu) = gluon.thermal.zero_matsubara.polarization_quark_l_thermal_part_zero_temp_landau ig k p mq mu := by
  simp only [gluon.thermal.zero_matsubara.polarization_quark_l_thermal_part_zero_temp_landau, gluon.thermal.zero_matsubara.polarization_quark_l_thermal_part_zero_temp_landau_w_method, gluon.thermal.zero_matsubara.polarization_quark_l_thermal_part_zero_temp_landau_i, gluon.thermal.polarization_quark_l_thermal_part_zero_temp_landau_i, (C14_consistency _ _ _).2.1, (C14_consistency_zero_temp _ _).2.1, abs_neg, fermi_momentum_neg]

theorem even_mu_gluon_thermal_zero_matsubara_polarization_quark_t_thermal_part_zero_temp_landau (ig : Integrator) (k : Consts ℝ) (p : ℝ) (mq : ℝ) (mu : ℝ) :
    gluon.thermal.zero_matsubara.polarization_quark_t_thermal_part_zero_temp_landau ig k p mq (-mu) = gluon.thermal.zero_matsubara.polarization_quark_t_thermal_part_zero_temp_landau ig k p mq mu := by
  simp only [gluon.thermal.zero_matsubara.polarization_quark_t_thermal_part_zero_temp_landau, gluon.thermal.zero_matsubara.polarization_quark_t_thermal_part_zero_temp_landau_w_method, gluon.thermal.zero_matsubara.polarization_quark_t_thermal_part_zero_temp_landau_i, gluon.thermal.polarization_quark_t_thermal_part_zero_temp_landau_i, (C14_consistency _ _ _).2.1, (C14_consistency_zero_temp _ _).2.1, abs_neg, fermi_momentum_neg]

/-- **C45**: `gluon::thermal::zero_matsubara` is unchanged by `mu → -mu`. -/
theorem C45_gluon_thermal_zero_matsubara (ig : Integrator) (k : Consts ℝ) :
    (∀ (p : ℝ) (mq : ℝ) (beta : ℝ) (mu : ℝ) (integral : Integral ℝ), gluon.thermal.zero_matsubara.polarization_quark_l_thermal_part_landau_w_method ig k p mq beta (-mu) integral =
      gluon.thermal.zero_matsubara.polarization_quark_l_thermal_part_landau_w_method ig k p mq beta mu integral) ∧
    (∀ (p : ℝ) (mq : ℝ) (beta : ℝ) (mu : ℝ) (integral : Integral ℝ), gluon.thermal.zero_matsubara.polarization_quark_t_thermal_part_landau_w_method ig k p mq beta (-mu) integral =
      gluon.thermal.zero_matsubara.polarization_quark_t_thermal_part_landau_w_method ig k p mq beta mu integral) ∧
    (∀ (p : ℝ) (mq : ℝ) (mu : ℝ) (integral : Integral ℝ), gluon.thermal.zero_matsubara.polarization_quark_l_thermal_part_zero_temp_landau_w_method ig k p mq (-mu) integral =
      gluon.thermal.zero_matsubara.polarization_quark_l_thermal_part_zero_temp_landau_w_method ig k p mq mu integral) ∧
    (∀ (p : ℝ) (mq : ℝ) (mu : ℝ) (integral : Integral ℝ), gluon.thermal.zero_matsubara.polarization_quark_t_thermal_part_zero_temp_landau_w_method ig k p mq (-mu) integral =
      gluon.thermal.zero_matsubara.polarization_quark_t_thermal_part_zero_temp_landau_w_method ig k p mq mu integral) ∧
    (∀ (p : ℝ) (mq : ℝ) (beta : ℝ) (mu : ℝ), gluon.thermal.zero_matsubara.polarization_quark_l_thermal_part_landau ig k p mq beta (-mu) =
      gluon.thermal.zero_matsubara.polarization_quark_l_thermal_part_landau ig k p mq beta mu) ∧
    (∀ (p : ℝ) (mq : ℝ) (beta : ℝ) (mu : ℝ), gluon.thermal.zero_matsubara.polarization_quark_t_thermal_part_landau ig k p mq beta (-mu) =
      gluon.thermal.zero_matsubara.polarization_quark_t_thermal_part_landau ig k p mq beta mu) ∧
    (∀ (p : ℝ) (mq : ℝ) (mu : ℝ), gluon.thermal.zero_matsubara.polarization_quark_l_thermal_part_zero_temp_landau ig k p mq (-mu) =
      gluon.thermal.zero_matsubara.polarization_quark_l_thermal_part_zero_temp_landau ig k p mq mu) ∧
    (∀ (p : ℝ) (mq : ℝ) (mu : ℝ), gluon.thermal.zero_matsubara.polarization_quark_t_thermal_part_zero_temp_landau ig k p mq (-mu) =
      gluon.thermal.zero_matsubara.polarization_quark_t_thermal_part_zero_temp_landau ig k p mq mu) := by
  exact ⟨even_mu_gluon_thermal_zero_matsubara_polarization_quark_l_thermal_part_landau_w_method ig k, even_mu_gluon_thermal_zero_matsubara_polarization_quark_t_thermal_part_landau_w_method ig k, even_mu_gluon_thermal_zero_matsubara_polarization_quark_l_thermal_part_zero_temp_landau_w_method ig k, even_mu_gluon_thermal_zero_matsubara_polarization_quark_t_thermal_part_zero_temp_landau_w_method ig k, even_mu_gluon_thermal_zero_matsubara_polarization_quark_l_thermal_part_landau ig k, even_mu_gluon_thermal_zero_matsubara_polarization_quark_t_thermal_part_landau ig k, even_mu_gluon_thermal_zero_matsubara_polarization_quark_l_thermal_part_zero_temp_landau ig k, even_mu_gluon_thermal_zero_matsubara_polarization_quark_t_thermal_part_zero_temp_landau ig k⟩

theorem even_mu_gluon_thermal_zero_momentum_polarization_quark_l_thermal_part_landau_w_method {T : Type} [Num T] (ig : Integrator) (k : Consts ℝ) (om : T) (mq : ℝ) (beta : ℝ) (mu : ℝ) (integral : Integral ℝ) :
    gluon.thermal.zero_momentum.polarization_quark_l_thermal_part_landau_w_method ig k om mq beta (-mu) integral = gluon.thermal.zero_momentum.polarization_quark_l_thermal_part_landau_w_method ig k om mq beta mu integral := by
  simp only [gluon.thermal.zero_momentum.polarization_quark_l_thermal_part_landau_w_method, gluon.thermal.zero_momentum.polarization_quark_l_thermal_part_landau_i, gluon.thermal.polarization_quark_l_thermal_part_landau_i, (C14_consistency _ _ _).2.1, (C14_consistency_zero_temp _ _).2.1, abs_neg, fermi_momentum_neg]

theorem even_mu_gluon_thermal_zero_momentum_polarization_quark_t_thermal_part_landau_w_method {T : Type} [Num T] (ig : Integrator) (k : Consts ℝ) (om : T) (mq : ℝ) (beta : ℝ) (mu : ℝ) (integral : Integral ℝ) :
    gluon.thermal.zero_momentum.polarization_quark_t_thermal_part_landau_w_method ig k om mq beta (-mu) integral = gluon.thermal.zero_momentum.polarization_quark_t_thermal_part_landau_w_method ig k om mq beta mu integral := by
  simp only [gluon.thermal.zero_momentum.polarization_quark_t_thermal_part_landau_w_method, gluon.thermal.zero_momentum.polarization_quark_t_thermal_part_landau_i, gluon.thermal.polarization_quark_t_thermal_part_landau_i, gluon.thermal.zero_momentum.polarization_quark_l_thermal_part_landau_i, gluon.thermal.polarization_quark_l_thermal_part_landau_i, (C14_consistency _ _ _).2.1, (C14_consistency_zero_temp _ _).2.1, abs_neg, fermi_momentum_neg]

theorem even_mu_gluon_thermal_zero_momentum_polarization_quark_l_thermal_part_zero_temp_landau_w_method {T : Type} [Num T] (ig : Integrator) (k : Consts ℝ) (om : T) (mq : ℝ) (mu : ℝ) (integral : Integral ℝ) :
    gluon.thermal.zero_momentum.polarization_quark_l_thermal_part_zero_temp_landau_w_method ig k om mq (-mu) integral = gluon.thermal.zero_momentum.polarization_quark_l_thermal_part_zero_temp_landau_w_method ig k om mq mu integral := by
  simp only [gluon.thermal.zero_momentum.polarization_quark_l_thermal_part_zero_temp_landau_w_method, gluon.thermal.zero_momentum.polarization_quark_l_thermal_part_zero_temp_landau_i, gluon.thermal.polarization_quark_l_thermal_part_zero_temp_landau_i, (C14_consistency _ _ _).2.1, (C14_consistency_zero_temp _ _).2.1, abs_neg, fermi_momentum_neg]

theorem even_mu_gluon_thermal_zero_momentum_polarization_quark_t_thermal_part_zero_temp_landau_w_method {T : Type} [Num T] (ig : Integrator) (k : Consts ℝ) (om : T) (mq : ℝ) (mu : ℝ) (integral : Integral ℝ) :
    gluon.thermal.zero_momentum.polarization_quark_t_thermal_part_zero_temp_landau_w_method ig k om mq (-mu) integral = gluon.thermal.zero_momentum.polarization_quark_t_thermal_part_zero_temp_landau_w_method ig k om mq mu integral := by
  simp only [gluon.thermal.zero_momentum.polarization_quark_t_thermal_part_zero_temp_landau_w_method, gluon.thermal.zero_momentum.polarization_quark_t_thermal_part_zero_temp_landau_i, gluon.thermal.polarization_quark_t_thermal_part_zero_temp_landau_i, gluon.thermal.zero_momentum.polarization_quark_l_thermal_part_zero_temp_landau_i, gluon.thermal.polarization_quark_l_thermal_part_zero_temp_landau_i, (C14_consistency _ _ _).2.1, (C14_consistency_zero_temp _ _).2.1, abs_neg, fermi_momentum_neg]

theorem even_mu_gluon_thermal_zero_momentum_polarization_quark_l_thermal_part_landau {T : Type} [Num T] (ig : Integrator) (k : Consts ℝ) (om : T) (mq : ℝ) (beta : ℝ) (mu : ℝ) :
    gluon.thermal.zero_momentum.polarization_quark_l_thermal_part_landau ig k om mq beta (-mu) = gluon.thermal.zero_momentum.polarization_quark_l_thermal_part_landau ig k om mq beta mu := by
  simp only [gluon.thermal.zero_momentum.polarization_quark_l_thermal_part_landau, gluon.thermal.zero_momentum.polarization_quark_l_thermal_part_landau_w_method, gluon.thermal.zero_momentum.polarization_quark_l_thermal_part_landau_i, gluon.thermal.polarization_quark_l_thermal_part_landau_i, (C14_consistency _ _ _).2.1, (C14_consistency_zero_temp _ _).2.1, abs_neg, fermi_momentum_neg]

theorem even_mu_gluon_thermal_zero_momentum_polarization_quark_t_thermal_part_landau {T : Type} [Num T] (ig : Integrator) (k : Consts ℝ) (om : T) (mq : ℝ) (beta : ℝ) (mu : ℝ) :
    gluon.thermal.zero_momentum.polarization_quark_t_thermal_part_landau ig k om mq beta (-mu) = gluon.thermal.zero_momentum.polarization_quark_t_thermal_part_landau ig k om mq beta mu := by
  simp only [gluon.thermal.zero_momentum.polarization_quark_t_thermal_part_landau, gluon.thermal.zero_momentum.polarization_quark_t_thermal_part_landau_w_method, gluon.thermal.zero_momentum.polarization_quark_t_thermal_part_landau_i, gluon.thermal.polarization_quark_t_thermal_part_landau_i, gluon.thermal.zero_momentum.polarization_quark_l_thermal_part_landau_i, gluon.thermal.polarization_quark_l_thermal_part_landau_i, (C14_consistency _ _ _).2.1, (C14_consistency_zero_temp _ _).2.1, abs_neg, fermi_momentum_neg]

theorem even_mu_gluon_thermal_zero_momentum_polarization_quark_l_thermal_part_zero_temp_landau {T : Type} [Num T] (ig : Integrator) (k : Consts ℝ) (om : T) (mq : ℝ) (mu : ℝ) :
    gluon.thermal.zero_momentum.polarization_quark_l_thermal_part_zero_temp_landau ig k om mq (-mu) = gluon.thermal.zero_momentum.polarization_quark_l_thermal_part_zero_temp_landau ig k om mq mu := by
  simp only [gluon.thermal.zero_momentum.polarization_quark_l_thermal_part_zero_temp_landau, gluon.thermal.zero_momentum.polarization_quark_l_thermal_part_zero_temp_landau_w_method, gluon.thermal.zero_momentum.polarization_quark_l_thermal_part_zero_temp_landau_i, gluon.thermal.polarization_quark_l_thermal_part_zero_temp_landau_i, (C14_consistency _ _ _).2.1, (C14_consistency_zero_temp _ _).2.1, abs_neg, fermi_momentum_neg]

theorem even_mu_gluon_thermal_zero_momentum_polarization_quark_t_thermal_part_zero_temp_landau {T : Type} [Num T] (ig : Integrator) (k : Consts ℝ) (om : T) (mq : ℝ) (mu : ℝ) :
    gluon.thermal.zero_momentum.polarization_quark_t_thermal_part_zero_temp_landau ig k om mq (-mu) = gluon.thermal.zero_momentum.polarization_quark_t_thermal_part_zero_temp_landau ig k om mq mu := by
  simp only [gluon.thermal.zero_momentum.polarization_quark_t_thermal_part_zero_temp_landau, gluon.thermal.zero_momentum.polarization_quark_t_thermal_part_zero_temp_landau_w_method, gluon.thermal.zero_momentum.polarization_quark_t_thermal_part_zero_temp_landau_i, gluon.thermal.polarization_quark_t_thermal_part_zero_temp_landau_i, gluon.thermal.zero_momentum.polarization_quark_l_thermal_part_zero_temp_landau_i, gluon.thermal.polarization_quark_l_thermal_part_zero_temp_landau_i, (C14_consistency _ _ _).2.1, (C14_consistency_zero_temp _ _).2.1, abs_neg, fermi_momentum_neg]

/-- **C45**: `gluon::thermal::zero_momentum` is unchanged by `mu → -mu`. -/
theorem C45_gluon_thermal_zero_momentum (ig : Integrator) (k : Consts ℝ) :
    (∀ (om : T) (mq : ℝ) (beta : ℝ) (mu : ℝ) (integral : Integral ℝ), gluon.thermal.zero_momentum.polarization_quark_l_thermal_part_landau_w_method ig k om mq beta (-mu) integral =
      gluon.thermal.zero_momentum.polarization_quark_l_thermal_part_landau_w_method ig k om mq beta mu integral) ∧
    (∀ (om : T) (mq : ℝ) (beta : ℝ) (mu : ℝ) (integral : Integral ℝ), gluon.thermal.zero_momentum.polarization_quark_t_thermal_part_landau_w_method ig k om mq beta (-mu) integral =
      gluon.thermal.zero_momentum.polarization_quark_t_thermal_part_landau_w_method ig k om mq beta mu integral) ∧
    (∀ (om : T) (mq : ℝ) (mu : ℝ) (integral : Integral ℝ), gluon.thermal.zero_momentum.polarization_quark_l_thermal_part_zero_temp_landau_w_method ig k om mq (-mu) integral =
      gluon.thermal.zero_momentum.polarization_quark_l_thermal_part_zero_temp_landau_w_method ig k om mq mu integral) ∧
    (∀ (om : T) (mq : ℝ) (mu : ℝ) (integral : Integral ℝ), gluon.thermal.zero_momentum.polarization_quark_t_thermal_part_zero_temp_landau_w_method ig k om mq (-mu) integral =
      gluon.thermal.zero_momentum.polarization_quark_t_thermal_part_zero_temp_landau_w_method ig k om mq mu integral) ∧
    (∀ (om : T) (mq : ℝ) (beta : ℝ) (mu : ℝ), gluon.thermal.zero_momentum.polarization_quark_l_thermal_part_landau ig k om mq beta (-mu) =
      gluon.thermal.zero_momentum.polarization_quark_l_thermal_part_landau ig k om mq beta mu) ∧
    (∀ (om : T) (mq : ℝ) (beta : ℝ) (mu : ℝ), gluon.thermal.zero_momentum.polarization_quark_t_thermal_part_landau ig k om mq beta (-mu) =
      gluon.thermal.zero_momentum.polarization_quark_t_thermal_part_landau ig k om mq beta mu) ∧
    (∀ (om : T) (mq : ℝ) (mu : ℝ), gluon.thermal.zero_momentum.polarization_quark_l_thermal_part_zero_temp_landau ig k om mq (-mu) =
      gluon.thermal.zero_momentum.polarization_quark_l_thermal_part_zero_temp_landau ig k om mq mu) ∧
    (∀ (om : T) (mq : ℝ) (mu : ℝ), gluon.thermal.zero_momentum.polarization_quark_t_thermal_part_zero_temp_landau ig k om mq (-mu) =
      gluon.thermal.zero_momentum.polarization_quark_t_thermal_part_zero_temp_landau ig k om mq mu) := by
  exact ⟨even_mu_gluon_thermal_zero_momentum_polarization_quark_l_thermal_part_landau_w_method ig k, even_mu_gluon_thermal_zero_momentum_polarization_quark_t_thermal_part_landau_w_method ig k, even_mu_gluon_thermal_zero_momentum_polarization_quark_l_thermal_part_zero_temp_landau_w_method ig k, even_mu_gluon_thermal_zero_momentum_polarization_quark_t_thermal_part_zero_temp_landau_w_method ig k, even_mu_gluon_thermal_zero_momentum_polarization_quark_l_thermal_part_landau ig k, even_mu_gluon_thermal_zero_momentum_polarization_quark_t_thermal_part_landau ig k, even_mu_gluon_thermal_zero_momentum_polarization_quark_l_thermal_part_zero_temp_landau ig k, even_mu_gluon_thermal_zero_momentum_polarization_quark_t_thermal_part_zero_temp_landau ig k⟩

theorem even_mu_qcd_thermal_gluon_dressing_l_inv_landau {T : Type} [Num T] (ig : Integrator) (k : Consts ℝ) (om : T) (p : ℝ) (m : ℝ) (mq : ℝ) (beta : ℝ) (mu : ℝ) (f0 : ℝ) :
    qcd.thermal.gluon.dressing_l_inv_landau ig k om p m mq beta (-mu) f0 = qcd.thermal.gluon.dressing_l_inv_landau ig k om p m mq beta mu f0 := by
  simp only [qcd.thermal.gluon.dressing_l_inv_landau, even_mu_gluon_thermal_polarization_quark_l_thermal_part_landau, even_mu_gluon_thermal_polarization_quark_t_thermal_part_landau, even_mu_gluon_thermal_polarization_quark_l_thermal_part_zero_temp_landau, even_mu_gluon_thermal_polarization_quark_t_thermal_part_zero_temp_landau]

theorem even_mu_qcd_thermal_gluon_dressing_t_inv_landau {T : Type} [Num T] (ig : Integrator) (k : Consts ℝ) (om : T) (p : ℝ) (m : ℝ) (mq : ℝ) (beta : ℝ) (mu : ℝ) (f0 : ℝ) :
    qcd.thermal.gluon.dressing_t_inv_landau ig k om p m mq beta (-mu) f0 = qcd.thermal.gluon.dressing_t_inv_landau ig k om p m mq beta mu f0 := by
  simp only [qcd.thermal.gluon.dressing_t_inv_landau, even_mu_gluon_thermal_polarization_quark_l_thermal_part_landau, even_mu_gluon_thermal_polarization_quark_t_thermal_part_landau, even_mu_gluon_thermal_polarization_quark_l_thermal_part_zero_temp_landau, even_mu_gluon_thermal_polarization_quark_t_thermal_part_zero_temp_landau]

theorem even_mu_qcd_thermal_gluon_dressing_l_landau {T : Type} [Num T] (ig : Integrator) (k : Consts ℝ) (om : T) (p : ℝ) (m : ℝ) (mq : ℝ) (beta : ℝ) (mu : ℝ) (f0 : ℝ) :
    qcd.thermal.gluon.dressing_l_landau ig k om p m mq beta (-mu) f0 = qcd.thermal.gluon.dressing_l_landau ig k om p m mq beta mu f0 := by
  simp only [qcd.thermal.gluon.dressing_l_landau, even_mu_qcd_thermal_gluon_dressing_l_inv_landau]

theorem even_mu_qcd_thermal_gluon_dressing_t_landau {T : Type} [Num T] (ig : Integrator) (k : Consts ℝ) (om : T) (p : ℝ) (m : ℝ) (mq : ℝ) (beta : ℝ) (mu : ℝ) (f0 : ℝ) :
    qcd.thermal.gluon.dressing_t_landau ig k om p m mq beta (-mu) f0 = qcd.thermal.gluon.dressing_t_landau ig k om p m mq beta mu f0 := by
  simp only [qcd.thermal.gluon.dressing_t_landau, even_mu_qcd_thermal_gluon_dressing_t_inv_landau]

theorem even_mu_qcd_thermal_gluon_propagator_l_landau {T : Type} [Num T] (ig : Integrator) (k : Consts ℝ) (om : T) (p : ℝ) (m : ℝ) (mq : ℝ) (beta : ℝ) (mu : ℝ) (f0 : ℝ) :
    qcd.thermal.gluon.propagator_l_landau ig k om p m mq beta (-mu) f0 = qcd.thermal.gluon.propagator_l_landau ig k om p m mq beta mu f0 := by
  simp only [qcd.thermal.gluon.propagator_l_landau, even_mu_qcd_thermal_gluon_dressing_l_landau]

theorem even_mu_qcd_thermal_gluon_propagator_t_landau {T : Type} [Num T] (ig : Integrator) (k : Consts ℝ) (om : T) (p : ℝ) (m : ℝ) (mq : ℝ) (beta : ℝ) (mu : ℝ) (f0 : ℝ) :
    qcd.thermal.gluon.propagator_t_landau ig k om p m mq beta (-mu) f0 = qcd.thermal.gluon.propagator_t_landau ig k om p m mq beta mu f0 := by
  simp only [qcd.thermal.gluon.propagator_t_landau, even_mu_qcd_thermal_gluon_dressing_t_landau]

theorem even_mu_qcd_thermal_gluon_dressing_l_inv_zero_temp_landau {T : Type} [Num T] (ig : Integrator) (k : Consts ℝ) (om : T) (p : ℝ) (m : ℝ) (mq : ℝ) (mu : ℝ) (f0 : ℝ) :
    qcd.thermal.gluon.dressing_l_inv_zero_temp_landau ig k om p m mq (-mu) f0 = qcd.thermal.gluon.dressing_l_inv_zero_temp_landau ig k om p m mq mu f0 := by
  simp only [qcd.thermal.gluon.dressing_l_inv_zero_temp_landau, even_mu_gluon_thermal_polarization_quark_l_thermal_part_landau, even_mu_gluon_thermal_polarization_quark_t_thermal_part_landau, even_mu_gluon_thermal_polarization_quark_l_thermal_part_zero_temp_landau, even_mu_gluon_thermal_polarization_quark_t_thermal_part_zero_temp_landau]

theorem even_mu_qcd_thermal_gluon_dressing_t_inv_zero_temp_landau {T : Type} [Num T] (ig : Integrator) (k : Consts ℝ) (om : T) (p : ℝ) (m : ℝ) (mq : ℝ) (mu : ℝ) (f0 : ℝ) :
    qcd.thermal.gluon.dressing_t_inv_zero_temp_landau ig k om p m mq (-mu) f0 = qcd.thermal.gluon.dressing_t_inv_zero_temp_landau ig k om p m mq mu f0 := by
  simp only [qcd.thermal.gluon.dressing_t_inv_zero_temp_landau, even_mu_gluon_thermal_polarization_quark_l_thermal_part_landau, even_mu_gluon_thermal_polarization_quark_t_thermal_part_landau, even_mu_gluon_thermal_polarization_quark_l_thermal_part_zero_temp_landau, even_mu_gluon_thermal_polarization_quark_t_thermal_part_zero_temp_landau]

theorem even_mu_qcd_thermal_gluon_dressing_l_zero_temp_landau {T : Type} [Num T] (ig : Integrator) (k : Consts ℝ) (om : T) (p : ℝ) (m : ℝ) (mq : ℝ) (mu : ℝ) (f0 : ℝ) :
    qcd.thermal.gluon.dressing_l_zero_temp_landau ig k om p m mq (-mu) f0 = qcd.thermal.gluon.dressing_l_zero_temp_landau ig k om p m mq mu f0 := by
  simp only [qcd.thermal.gluon.dressing_l_zero_temp_landau, even_mu_qcd_thermal_gluon_dressing_l_inv_zero_temp_landau]

theorem even_mu_qcd_thermal_gluon_dressing_t_zero_temp_landau {T : Type} [Num T] (ig : Integrator) (k : Consts ℝ) (om : T) (p : ℝ) (m : ℝ) (mq : ℝ) (mu : ℝ) (f0 : ℝ) :
    qcd.thermal.gluon.dressing_t_zero_temp_landau ig k om p m mq (-mu) f0 = qcd.thermal.gluon.dressing_t_zero_temp_landau ig k om p m mq mu f0 := by
  simp only [qcd.thermal.gluon.dressing_t_zero_temp_landau, even_mu_qcd_thermal_gluon_dressing_t_inv_zero_temp_landau]

theorem even_mu_qcd_thermal_gluon_propagator_l_zero_temp_landau {T : Type} [Num T] (ig : Integrator) (k : Consts ℝ) (om : T) (p : ℝ) (m : ℝ) (mq : ℝ) (mu : ℝ) (f0 : ℝ) :
    qcd.thermal.gluon.propagator_l_zero_temp_landau ig k om p m mq (-mu) f0 = qcd.thermal.gluon.propagator_l_zero_temp_landau ig k om p m mq mu f0 := by
  simp only [qcd.thermal.gluon.propagator_l_zero_temp_landau, even_mu_qcd_thermal_gluon_dressing_l_zero_temp_landau]

theorem even_mu_qcd_thermal_gluon_propagator_t_zero_temp_landau {T : Type} [Num T] (ig : Integrator) (k : Consts ℝ) (om : T) (p : ℝ) (m : ℝ) (mq : ℝ) (mu : ℝ) (f0 : ℝ) :
    qcd.thermal.gluon.propagator_t_zero_temp_landau ig k om p m mq (-mu) f0 = qcd.thermal.gluon.propagator_t_zero_temp_landau ig k om p m mq mu f0 := by
  simp only [qcd.thermal.gluon.propagator_t_zero_temp_landau, even_mu_qcd_thermal_gluon_dressing_t_zero_temp_landau]

theorem even_mu_qcd_thermal_gluon_dressing_l_inv_landau_w_field_config {T1 : Type} [Num T1] {T2 : Type} [Num T2] (ig : Integrator) (k : Consts ℝ) (om : T1) (p : T2) (beta : ℝ) (mu : ℝ) (f0 : ℝ) (config : FieldConfig) :
    qcd.thermal.gluon.dressing_l_inv_landau_w_field_config ig k om p beta (-mu) f0 config = qcd.thermal.gluon.dressing_l_inv_landau_w_field_config ig k om p beta mu f0 config := by
  simp only [qcd.thermal.gluon.dressing_l_inv_landau_w_field_config, even_mu_gluon_thermal_polarization_quark_l_thermal_part_landau, even_mu_gluon_thermal_polarization_quark_t_thermal_part_landau, even_mu_gluon_thermal_polarization_quark_l_thermal_part_zero_temp_landau, even_mu_gluon_thermal_polarization_quark_t_thermal_part_zero_temp_landau]

theorem even_mu_qcd_thermal_gluon_dressing_t_inv_landau_w_field_config {T : Type} [Num T] (ig : Integrator) (k : Consts ℝ) (om : T) (p : ℝ) (beta : ℝ) (mu : ℝ) (f0 : ℝ) (config : FieldConfig) :
    qcd.thermal.gluon.dressing_t_inv_landau_w_field_config ig k om p beta (-mu) f0 config = qcd.thermal.gluon.dressing_t_inv_landau_w_field_config ig k om p beta mu f0 config := by
  simp only [qcd.thermal.gluon.dressing_t_inv_landau_w_field_config, even_mu_gluon_thermal_polarization_quark_l_thermal_part_landau, even_mu_gluon_thermal_polarization_quark_t_thermal_part_landau, even_mu_gluon_thermal_polarization_quark_l_thermal_part_zero_temp_landau, even_mu_gluon_thermal_polarization_quark_t_thermal_part_zero_temp_landau]

theorem even_mu_qcd_thermal_gluon_dressing_l_landau_w_field_config {T1 : Type} [Num T1] {T2 : Type} [Num T2] (ig : Integrator) (k : Consts ℝ) (om : T1) (p : T2) (beta : ℝ) (mu : ℝ) (f0 : ℝ) (config : FieldConfig) :
    qcd.thermal.gluon.dressing_l_landau_w_field_config ig k om p beta (-mu) f0 config = qcd.thermal.gluon.dressing_l_landau_w_field_config ig k om p beta mu f0 config := by
  simp only [qcd.thermal.gluon.dressing_l_landau_w_field_config, even_mu_qcd_thermal_gluon_dressing_l_inv_landau_w_field_config]

theorem even_mu_qcd_thermal_gluon_dressing_t_landau_w_field_config {T : Type} [Num T] (ig : Integrator) (k : Consts ℝ) (om : T) (p : ℝ) (beta : ℝ) (mu : ℝ) (f0 : ℝ) (config : FieldConfig) :
    qcd.thermal.gluon.dressing_t_landau_w_field_config ig k om p beta (-mu) f0 config = qcd.thermal.gluon.dressing_t_landau_w_field_config ig k om p beta mu f0 config := by
  simp only [qcd.thermal.gluon.dressing_t_landau_w_field_config, even_mu_qcd_thermal_gluon_dressing_t_inv_landau_w_field_config]

theorem even_mu_qcd_thermal_gluon_propagator_l_landau_w_field_config {T1 : Type} [Num T1] {T2 : Type} [Num T2] (ig : Integrator) (k : Consts ℝ) (om : T1) (p : T2) (beta : ℝ) (mu : ℝ) (f0 : ℝ) (config : FieldConfig) :
    qcd.thermal.gluon.propagator_l_landau_w_field_config ig k om p beta (-mu) f0 config = qcd.thermal.gluon.propagator_l_landau_w_field_config ig k om p beta mu f0 config := by
  simp only [qcd.thermal.gluon.propagator_l_landau_w_field_config, even_mu_qcd_thermal_gluon_dressing_l_landau_w_field_config]

theorem even_mu_qcd_thermal_gluon_propagator_t_landau_w_field_config {T : Type} [Num T] (ig : Integrator) (k : Consts ℝ) (om : T) (p : ℝ) (beta : ℝ) (mu : ℝ) (f0 : ℝ) (config : FieldConfig) :
    qcd.thermal.gluon.propagator_t_landau_w_field_config ig k om p beta (-mu) f0 config = qcd.thermal.gluon.propagator_t_landau_w_field_config ig k om p beta mu f0 config := by
  simp only [qcd.thermal.gluon.propagator_t_landau_w_field_config, even_mu_qcd_thermal_gluon_dressing_t_landau_w_field_config]

theorem even_mu_qcd_thermal_gluon_dressing_l_inv_zero_temp_landau_w_field_config {T1 : Type} [Num T1] {T2 : Type} [Num T2] (ig : Integrator) (k : Consts ℝ) (om : T1) (p : T2) (mu : ℝ) (f0 : ℝ) (config : FieldConfig) :
    qcd.thermal.gluon.dressing_l_inv_zero_temp_landau_w_field_config ig k om p (-mu) f0 config = qcd.thermal.gluon.dressing_l_inv_zero_temp_landau_w_field_config ig k om p mu f0 config := by
  simp only [qcd.thermal.gluon.dressing_l_inv_zero_temp_landau_w_field_config, even_mu_gluon_thermal_polarization_quark_l_thermal_part_landau, even_mu_gluon_thermal_polarization_quark_t_thermal_part_landau, even_mu_gluon_thermal_polarization_quark_l_thermal_part_zero_temp_landau, even_mu_gluon_thermal_polarization_quark_t_thermal_part_zero_temp_landau]

theorem even_mu_qcd_thermal_gluon_dressing_t_inv_zero_temp_landau_w_field_config {T : Type} [Num T] (ig : Integrator) (k : Consts ℝ) (om : T) (p : ℝ) (mu : ℝ) (f0 : ℝ) (config : FieldConfig) :
    qcd.thermal.gluon.dressing_t_inv_zero_temp_landau_w_field_config ig k om p (-mu) f0 config = qcd.thermal.gluon.dressing_t_inv_zero_temp_landau_w_field_config ig k om p mu f0 config := by
  simp only [qcd.thermal.gluon.dressing_t_inv_zero_temp_landau_w_field_config, even_mu_gluon_thermal_polarization_quark_l_thermal_part_landau, even_mu_gluon_thermal_polarization_quark_t_thermal_part_landau, even_mu_gluon_thermal_polarization_quark_l_thermal_part_zero_temp_landau, even_mu_gluon_thermal_polarization_quark_t_thermal_part_zero_temp_landau]

theorem even_mu_qcd_thermal_gluon_dressing_l_zero_temp_landau_w_field_config {T1 : Type} [Num T1] {T2 : Type} [Num T2] (ig : Integrator) (k : Consts ℝ) (om : T1) (p : T2) (mu : ℝ) (f0 : ℝ) (config : FieldConfig) :
    qcd.thermal.gluon.dressing_l_zero_temp_landau_w_field_config ig k om p (-mu) f0 config = qcd.thermal.gluon.dressing_l_zero_temp_landau_w_field_config ig k om p mu f0 config := by
  simp only [qcd.thermal.gluon.dressing_l_zero_temp_landau_w_field_config, even_mu_qcd_thermal_gluon_dressing_l_inv_zero_temp_landau_w_field_config]

theorem even_mu_qcd_thermal_gluon_dressing_t_zero_temp_landau_w_field_config {T : Type} [Num T] (ig : Integrator) (k : Consts ℝ) (om : T) (p : ℝ) (mu : ℝ) (f0 : ℝ) (config : FieldConfig) :
    qcd.thermal.gluon.dressing_t_zero_temp_landau_w_field_config ig k om p (-mu) f0 config = qcd.thermal.gluon.dressing_t_zero_temp_landau_w_field_config ig k om p mu f0 config := by
  simp only [qcd.thermal.gluon.dressing_t_zero_temp_landau_w_field_config, even_mu_qcd_thermal_gluon_dressing_t_inv_zero_temp_landau_w_field_config]

theorem even_mu_qcd_thermal_gluon_propagator_l_zero_temp_landau_w_field_config {T1 : Type} [Num T1] {T2 : Type} [Num T2] (ig : Integrator) (k : Consts ℝ) (om : T1) (p : T2) (mu : ℝ) (f0 : ℝ) (config : FieldConfig) :
    qcd.thermal.gluon.propagator_l_zero_temp_landau_w_field_config ig k om p (-mu) f0 config = qcd.thermal.gluon.propagator_l_zero_temp_landau_w_field_config ig k om p mu f0 config := by
  simp only [qcd.thermal.gluon.propagator_l_zero_temp_landau_w_field_config, even_mu_qcd_thermal_gluon_dressing_l_zero_temp_landau_w_field_config]

theorem even_mu_qcd_thermal_gluon_propagator_t_zero_temp_landau_w_field_config {T : Type} [Num T] (ig : Integrator) (k : Consts ℝ) (om : T) (p : ℝ) (mu : ℝ) (f0 : ℝ) (config : FieldConfig) :
    qcd.thermal.gluon.propagator_t_zero_temp_landau_w_field_config ig k om p (-mu) f0 config = qcd.thermal.gluon.propagator_t_zero_temp_landau_w_field_config ig k om p mu f0 config := by
  simp only [qcd.thermal.gluon.propagator_t_zero_temp_landau_w_field_config, even_mu_qcd_thermal_gluon_dressing_t_zero_temp_landau_w_field_config]

/-- **C45**: `qcd::thermal::gluon` is unchanged by `mu → -mu`. -/
theorem C45_qcd_thermal_gluon (ig : Integrator) (k : Consts ℝ) :
    (∀ (om : T) (p : ℝ) (m : ℝ) (mq : ℝ) (beta : ℝ) (mu : ℝ) (f0 : ℝ), qcd.thermal.gluon.dressing_l_inv_landau ig k om p m mq beta (-mu) f0 =
      qcd.thermal.gluon.dressing_l_inv_landau ig k om p m mq beta mu f0) ∧
    (∀ (om : T) (p : ℝ) (m : ℝ) (mq : ℝ) (beta : ℝ) (mu : ℝ) (f0 : ℝ), qcd.thermal.gluon.dressing_t_inv_landau ig k om p m mq beta (-mu) f0 =
      qcd.thermal.gluon.dressing_t_inv_landau ig k om p m mq beta mu f0) ∧
    (∀ (om : T) (p : ℝ) (m : ℝ) (mq : ℝ) (beta : ℝ) (mu : ℝ) (f0 : ℝ), qcd.thermal.gluon.dressing_l_landau ig k om p m mq beta (-mu) f0 =
      qcd.thermal.gluon.dressing_l_landau ig k om p m mq beta mu f0) ∧
    (∀ (om : T) (p : ℝ) (m : ℝ) (mq : ℝ) (beta : ℝ) (mu : ℝ) (f0 : ℝ), qcd.thermal.gluon.dressing_t_landau ig k om p m mq beta (-mu) f0 =
      qcd.thermal.gluon.dressing_t_landau ig k om p m mq beta mu f0) ∧
    (∀ (om : T) (p : ℝ) (m : ℝ) (mq : ℝ) (beta : ℝ) (mu : ℝ) (f0 : ℝ), qcd.thermal.gluon.propagator_l_landau ig k om p m mq beta (-mu) f0 =
      qcd.thermal.gluon.propagator_l_landau ig k om p m mq beta mu f0) ∧
    (∀ (om : T) (p : ℝ) (m : ℝ) (mq : ℝ) (beta : ℝ) (mu : ℝ) (f0 : ℝ), qcd.thermal.gluon.propagator_t_landau ig k om p m mq beta (-mu) f0 =
      qcd.thermal.gluon.propagator_t_landau ig k om p m mq beta mu f0) ∧
    (∀ (om : T) (p : ℝ) (m : ℝ) (mq : ℝ) (mu : ℝ) (f0 : ℝ), qcd.thermal.gluon.dressing_l_inv_zero_temp_landau ig k om p m mq (-mu) f0 =
      qcd.thermal.gluon.dressing_l_inv_zero_temp_landau ig k om p m mq mu f0) ∧
    (∀ (om : T) (p : ℝ) (m : ℝ) (mq : ℝ) (mu : ℝ) (f0 : ℝ), qcd.thermal.gluon.dressing_t_inv_zero_temp_landau ig k om p m mq (-mu) f0 =
      qcd.thermal.gluon.dressing_t_inv_zero_temp_landau ig k om p m mq mu f0) ∧
    (∀ (om : T) (p : ℝ) (m : ℝ) (mq : ℝ) (mu : ℝ) (f0 : ℝ), qcd.thermal.gluon.dressing_l_zero_temp_landau ig k om p m mq (-mu) f0 =
      qcd.thermal.gluon.dressing_l_zero_temp_landau ig k om p m mq mu f0) ∧
    (∀ (om : T) (p : ℝ) (m : ℝ) (mq : ℝ) (mu : ℝ) (f0 : ℝ), qcd.thermal.gluon.dressing_t_zero_temp_landau ig k om p m mq (-mu) f0 =
      qcd.thermal.gluon.dressing_t_zero_temp_landau ig k om p m mq mu f0) ∧
    (∀ (om : T) (p : ℝ) (m : ℝ) (mq : ℝ) (mu : ℝ) (f0 : ℝ), qcd.thermal.gluon.propagator_l_zero_temp_landau ig k om p m mq (-mu) f0 =
      qcd.thermal.gluon.propagator_l_zero_temp_landau ig k om p m mq mu f0) ∧
    (∀ (om : T) (p : ℝ) (m : ℝ) (mq : ℝ) (mu : ℝ) (f0 : ℝ), qcd.thermal.gluon.propagator_t_zero_temp_landau ig k om p m mq (-mu) f0 =
      qcd.thermal.gluon.propagator_t_zero_temp_landau ig k om p m mq mu f0) ∧
    (∀ (om : T1) (p : T2) (beta : ℝ) (mu : ℝ) (f0 : ℝ) (config : FieldConfig), qcd.thermal.gluon.dressing_l_inv_landau_w_field_config ig k om p beta (-mu) f0 config =
      qcd.thermal.gluon.dressing_l_inv_landau_w_field_config ig k om p beta mu f0 config) ∧
    (∀ (om : T) (p : ℝ) (beta : ℝ) (mu : ℝ) (f0 : ℝ) (config : FieldConfig), qcd.thermal.gluon.dressing_t_inv_landau_w_field_config ig k om p beta (-mu) f0 config =
      qcd.thermal.gluon.dressing_t_inv_landau_w_field_config ig k om p beta mu f0 config) ∧
    (∀ (om : T1) (p : T2) (beta : ℝ) (mu : ℝ) (f0 : ℝ) (config : FieldConfig), qcd.thermal.gluon.dressing_l_landau_w_field_config ig k om p beta (-mu) f0 config =
      qcd.thermal.gluon.dressing_l_landau_w_field_config ig k om p beta mu f0 config) ∧
    (∀ (om : T) (p : ℝ) (beta : ℝ) (mu : ℝ) (f0 : ℝ) (config : FieldConfig), qcd.thermal.gluon.dressing_t_landau_w_field_config ig k om p beta (-mu) f0 config =
      qcd.thermal.gluon.dressing_t_landau_w_field_config ig k om p beta mu f0 config) ∧
    (∀ (om : T1) (p : T2) (beta : ℝ) (mu : ℝ) (f0 : ℝ) (config : FieldConfig), qcd.thermal.gluon.propagator_l_landau_w_field_config ig k om p beta (-mu) f0 config =
      qcd.thermal.gluon.propagator_l_landau_w_field_config ig k om p beta mu f0 config) ∧
    (∀ (om : T) (p : ℝ) (beta : ℝ) (mu : ℝ) (f0 : ℝ) (config : FieldConfig), qcd.thermal.gluon.propagator_t_landau_w_field_config ig k om p beta (-mu) f0 config =
      qcd.thermal.gluon.propagator_t_landau_w_field_config ig k om p beta mu f0 config) ∧
    (∀ (om : T1) (p : T2) (mu : ℝ) (f0 : ℝ) (config : FieldConfig), qcd.thermal.gluon.dressing_l_inv_zero_temp_landau_w_field_config ig k om p (-mu) f0 config =
      qcd.thermal.gluon.dressing_l_inv_zero_temp_landau_w_field_config ig k om p mu f0 config) ∧
    (∀ (om : T) (p : ℝ) (mu : ℝ) (f0 : ℝ) (config : FieldConfig), qcd.thermal.gluon.dressing_t_inv_zero_temp_landau_w_field_config ig k om p (-mu) f0 config =
      qcd.thermal.gluon.dressing_t_inv_zero_temp_landau_w_field_config ig k om p mu f0 config) ∧
    (∀ (om : T1) (p : T2) (mu : ℝ) (f0 : ℝ) (config : FieldConfig), qcd.thermal.gluon.dressing_l_zero_temp_landau_w_field_config ig k om p (-mu) f0 config =
      qcd.thermal.gluon.dressing_l_zero_temp_landau_w_field_config ig k om p mu f0 config) ∧
    (∀ (om : T) (p : ℝ) (mu : ℝ) (f0 : ℝ) (config : FieldConfig), qcd.thermal.gluon.dressing_t_zero_temp_landau_w_field_config ig k om p (-mu) f0 config =
      qcd.thermal.gluon.dressing_t_zero_temp_landau_w_field_config ig k om p mu f0 config) ∧
    (∀ (om : T1) (p : T2) (mu : ℝ) (f0 : ℝ) (config : FieldConfig), qcd.thermal.gluon.propagator_l_zero_temp_landau_w_field_config ig k om p (-mu) f0 config =
      qcd.thermal.gluon.propagator_l_zero_temp_landau_w_field_config ig k om p mu f0 config) ∧
    (∀ (om : T) (p : ℝ) (mu : ℝ) (f0 : ℝ) (config : FieldConfig), qcd.thermal.gluon.propagator_t_zero_temp_landau_w_field_config ig k om p (-mu) f0 config =
      qcd.thermal.gluon.propagator_t_zero_temp_landau_w_field_config ig k om p mu f0 config) := by
  exact ⟨even_mu_qcd_thermal_gluon_dressing_l_inv_landau ig k, even_mu_qcd_thermal_gluon_dressing_t_inv_landau ig k, even_mu_qcd_thermal_gluon_dressing_l_landau ig k, even_mu_qcd_thermal_gluon_dressing_t_landau ig k, even_mu_qcd_thermal_gluon_propagator_l_landau ig k, even_mu_qcd_thermal_gluon_propagator_t_landau ig k, even_mu_qcd_thermal_gluon_dressing_l_inv_zero_temp_landau ig k, even_mu_qcd_thermal_gluon_dressing_t_inv_zero_temp_landau ig k, even_mu_qcd_thermal_gluon_dressing_l_zero_temp_landau ig k, even_mu_qcd_thermal_gluon_dressing_t_zero_temp_landau ig k, even_mu_qcd_thermal_gluon_propagator_l_zero_temp_landau ig k, even_mu_qcd_thermal_gluon_propagator_t_zero_temp_landau ig k, even_mu_qcd_thermal_gluon_dressing_l_inv_landau_w_field_config ig k, even_mu_qcd_thermal_gluon_dressing_t_inv_landau_w_field_config ig k, even_mu_qcd_thermal_gluon_dressing_l_landau_w_field_config ig k, even_mu_qcd_thermal_gluon_dressing_t_landau_w_field_config ig k, even_mu_qcd_thermal_gluon_propagator_l_landau_w_field_config ig k, even_mu_qcd_thermal_gluon_propagator_t_landau_w_field_config ig k, even_mu_qcd_thermal_gluon_dressing_l_inv_zero_temp_landau_w_field_config ig k, even_mu_qcd_thermal_gluon_dressing_t_inv_zero_temp_landau_w_field_config ig k, even_mu_qcd_thermal_gluon_dressing_l_zero_temp_landau_w_field_config ig k, even_mu_qcd_thermal_gluon_dressing_t_zero_temp_landau_w_field_config ig k, even_mu_qcd_thermal_gluon_propagator_l_zero_temp_landau_w_field_config ig k, even_mu_qcd_thermal_gluon_propagator_t_zero_temp_landau_w_field_config ig k⟩

theorem even_mu_qcd_thermal_zero_matsubara_gluon_dressing_l_inv_landau (ig : Integrator) (k : Consts ℝ) (p : ℝ) (m : ℝ) (mq : ℝ) (beta : ℝ) (mu : ℝ) (f0 : ℝ) :
    qcd.thermal.zero_matsubara.gluon.dressing_l_inv_landau ig k p m mq beta (-mu) f0 = qcd.thermal.zero_matsubara.gluon.dressing_l_inv_landau ig k p m mq beta mu f0 := by
  simp only [qcd.thermal.zero_matsubara.gluon.dressing_l_inv_landau, even_mu_gluon_thermal_zero_matsubara_polarization_quark_l_thermal_part_landau, even_mu_gluon_thermal_zero_matsubara_polarization_quark_t_thermal_part_landau, even_mu_gluon_thermal_zero_matsubara_polarization_quark_l_thermal_part_zero_temp_landau, even_mu_gluon_thermal_zero_matsubara_polarization_quark_t_thermal_part_zero_temp_landau]

theorem even_mu_qcd_thermal_zero_matsubara_gluon_dressing_t_inv_landau (ig : Integrator) (k : Consts ℝ) (p : ℝ) (m : ℝ) (mq : ℝ) (beta : ℝ) (mu : ℝ) (f0 : ℝ) :
    qcd.thermal.zero_matsubara.gluon.dressing_t_inv_landau ig k p m mq beta (-mu) f0 = qcd.thermal.zero_matsubara.gluon.dressing_t_inv_landau ig k p m mq beta mu f0 := by
  simp only [qcd.thermal.zero_matsubara.gluon.dressing_t_inv_landau, even_mu_gluon_thermal_zero_matsubara_polarization_quark_l_thermal_part_landau, even_mu_gluon_thermal_zero_matsubara_polarization_quark_t_thermal_part_landau, even_mu_gluon_thermal_zero_matsubara_polarization_quark_l_thermal_part_zero_temp_landau, even_mu_gluon_thermal_zero_matsubara_polarization_quark_t_thermal_part_zero_temp_landau]

theorem even_mu_qcd_thermal_zero_matsubara_gluon_dressing_l_landau (ig : Integrator) (k : Consts ℝ) (p : ℝ) (m : ℝ) (mq : ℝ) (beta : ℝ) (mu : ℝ) (f0 : ℝ) :
    qcd.thermal.zero_matsubara.gluon.dressing_l_landau ig k p m mq beta (-mu) f0 = qcd.thermal.zero_matsubara.gluon.dressing_l_landau ig k p m mq beta mu f0 := by
  simp only [qcd.thermal.zero_matsubara.gluon.dressing_l_landau, even_mu_qcd_thermal_zero_matsubara_gluon_dressing_l_inv_landau]

theorem even_mu_qcd_thermal_zero_matsubara_gluon_dressing_t_landau (ig : Integrator) (k : Consts ℝ) (p : ℝ) (m : ℝ) (mq : ℝ) (beta : ℝ) (mu : ℝ) (f0 : ℝ) :
    qcd.thermal.zero_matsubara.gluon.dressing_t_landau ig k p m mq beta (-mu) f0 = qcd.thermal.zero_matsubara.gluon.dressing_t_landau ig k p m mq beta mu f0 := by
  simp only [qcd.thermal.zero_matsubara.gluon.dressing_t_landau, even_mu_qcd_thermal_zero_matsubara_gluon_dressing_t_inv_landau]

theorem even_mu_qcd_thermal_zero_matsubara_gluon_propagator_l_landau (ig : Integrator) (k : Consts ℝ) (p : ℝ) (m : ℝ) (mq : ℝ) (beta : ℝ) (mu : ℝ) (f0 : ℝ) :
    qcd.thermal.zero_matsubara.gluon.propagator_l_landau ig k p m mq beta (-mu) f0 = qcd.thermal.zero_matsubara.gluon.propagator_l_landau ig k p m mq beta mu f0 := by
  simp only [qcd.thermal.zero_matsubara.gluon.propagator_l_landau, even_mu_qcd_thermal_zero_matsubara_gluon_dressing_l_landau]

theorem even_mu_qcd_thermal_zero_matsubara_gluon_propagator_t_landau (ig : Integrator) (k : Consts ℝ) (p : ℝ) (m : ℝ) (mq : ℝ) (beta : ℝ) (mu : ℝ) (f0 : ℝ) :
    qcd.thermal.zero_matsubara.gluon.propagator_t_landau ig k p m mq beta (-mu) f0 = qcd.thermal.zero_matsubara.gluon.propagator_t_landau ig k p m mq beta mu f0 := by
  simp only [qcd.thermal.zero_matsubara.gluon.propagator_t_landau, even_mu_qcd_thermal_zero_matsubara_gluon_dressing_t_landau]

theorem even_mu_qcd_thermal_zero_matsubara_gluon_dressing_l_inv_zero_temp_landau (ig : Integrator) (k : Consts ℝ) (p : ℝ) (m : ℝ) (mq : ℝ) (mu : ℝ) (f0 : ℝ) :
    qcd.thermal.zero_matsubara.gluon.dressing_l_inv_zero_temp_landau ig k p m mq (-mu) f0 = qcd.thermal.zero_matsubara.gluon.dressing_l_inv_zero_temp_landau ig k p m mq mu f0 := by
  simp only [qcd.thermal.zero_matsubara.gluon.dressing_l_inv_zero_temp_landau, even_mu_gluon_thermal_zero_matsubara_polarization_quark_l_thermal_part_landau, even_mu_gluon_thermal_zero_matsubara_polarization_quark_t_thermal_part_landau, even_mu_gluon_thermal_zero_matsubara_polarization_quark_l_thermal_part_zero_temp_landau, even_mu_gluon_thermal_zero_matsubara_polarization_quark_t_thermal_part_zero_temp_landau]

theorem even_mu_qcd_thermal_zero_matsubara_gluon_dressing_t_inv_zero_temp_landau (ig : Integrator) (k : Consts ℝ) (p : ℝ) (m : ℝ) (mq : ℝ) (mu : ℝ) (f0 : ℝ) :
    qcd.thermal.zero_matsubara.gluon.dressing_t_inv_zero_temp_landau ig k p m mq (-mu) f0 = qcd.thermal.zero_matsubara.gluon.dressing_t_inv_zero_temp_landau ig k p m mq mu f0 := by
  simp only [qcd.thermal.zero_matsubara.gluon.dressing_t_inv_zero_temp_landau, even_mu_gluon_thermal_zero_matsubara_polarization_quark_l_thermal_part_landau, even_mu_gluon_thermal_zero_matsubara_polarization_quark_t_thermal_part_landau, even_mu_gluon_thermal_zero_matsubara_polarization_quark_l_thermal_part_zero_temp_landau, even_mu_gluon_thermal_zero_matsubara_polarization_quark_t_thermal_part_zero_temp_landau]

theorem even_mu_qcd_thermal_zero_matsubara_gluon_dressing_l_zero_temp_landau (ig : Integrator) (k : Consts ℝ) (p : ℝ) (m : ℝ) (mq : ℝ) (mu : ℝ) (f0 : ℝ) :
    qcd.thermal.zero_matsubara.gluon.dressing_l_zero_temp_landau ig k p m mq (-mu) f0 = qcd.thermal.zero_matsubara.gluon.dressing_l_zero_temp_landau ig k p m mq mu f0 := by
  simp only [qcd.thermal.zero_matsubara.gluon.dressing_l_zero_temp_landau, even_mu_qcd_thermal_zero_matsubara_gluon_dressing_l_inv_zero_temp_landau]

theorem even_mu_qcd_thermal_zero_matsubara_gluon_dressing_t_zero_temp_landau (ig : Integrator) (k : Consts ℝ) (p : ℝ) (m : ℝ) (mq : ℝ) (mu : ℝ) (f0 : ℝ) :
    qcd.thermal.zero_matsubara.gluon.dressing_t_zero_temp_landau ig k p m mq (-mu) f0 = qcd.thermal.zero_matsubara.gluon.dressing_t_zero_temp_landau ig k p m mq mu f0 := by
  simp only [qcd.thermal.zero_matsubara.gluon.dressing_t_zero_temp_landau, even_mu_qcd_thermal_zero_matsubara_gluon_dressing_t_inv_zero_temp_landau]

theorem even_mu_qcd_thermal_zero_matsubara_gluon_propagator_l_zero_temp_landau (ig : Integrator) (k : Consts ℝ) (p : ℝ) (m : ℝ) (mq : ℝ) (mu : ℝ) (f0 : ℝ) :
    qcd.thermal.zero_matsubara.gluon.propagator_l_zero_temp_landau ig k p m mq (-mu) f0 = qcd.thermal.zero_matsubara.gluon.propagator_l_zero_temp_landau ig k p m mq mu f0 := by
  simp only [qcd.thermal.zero_matsubara.gluon.propagator_l_zero_temp_landau, even_mu_qcd_thermal_zero_matsubara_gluon_dressing_l_zero_temp_landau]

theorem even_mu_qcd_thermal_zero_matsubara_gluon_propagator_t_zero_temp_landau (ig : Integrator) (k : Consts ℝ) (p : ℝ) (m : ℝ) (mq : ℝ) (mu : ℝ) (f0 : ℝ) :
    qcd.thermal.zero_matsubara.gluon.propagator_t_zero_temp_landau ig k p m mq (-mu) f0 = qcd.thermal.zero_matsubara.gluon.propagator_t_zero_temp_landau ig k p m mq mu f0 := by
  simp only [qcd.thermal.zero_matsubara.gluon.propagator_t_zero_temp_landau, even_mu_qcd_thermal_zero_matsubara_gluon_dressing_t_zero_temp_landau]

theorem even_mu_qcd_thermal_zero_matsubara_gluon_dressing_l_inv_landau_w_field_config (ig : Integrator) (k : Consts ℝ) (p : ℝ) (beta : ℝ) (mu : ℝ) (f0 : ℝ) (config : FieldConfig) :
    qcd.thermal.zero_matsubara.gluon.dressing_l_inv_landau_w_field_config ig k p beta (-mu) f0 config = qcd.thermal.zero_matsubara.gluon.dressing_l_inv_landau_w_field_config ig k p beta mu f0 config := by
  simp only [qcd.thermal.zero_matsubara.gluon.dressing_l_inv_landau_w_field_config, even_mu_gluon_thermal_zero_matsubara_polarization_quark_l_thermal_part_landau, even_mu_gluon_thermal_zero_matsubara_polarization_quark_t_thermal_part_landau, even_mu_gluon_thermal_zero_matsubara_polarization_quark_l_thermal_part_zero_temp_landau, even_mu_gluon_thermal_zero_matsubara_polarization_quark_t_thermal_part_zero_temp_landau]

theorem even_mu_qcd_thermal_zero_matsubara_gluon_dressing_t_inv_landau_w_field_config (ig : Integrator) (k : Consts ℝ) (p : ℝ) (beta : ℝ) (mu : ℝ) (f0 : ℝ) (config : FieldConfig) :
    qcd.thermal.zero_matsubara.gluon.dressing_t_inv_landau_w_field_config ig k p beta (-mu) f0 config = qcd.thermal.zero_matsubara.gluon.dressing_t_inv_landau_w_field_config ig k p beta mu f0 config := by
  simp only [qcd.thermal.zero_matsubara.gluon.dressing_t_inv_landau_w_field_config, even_mu_gluon_thermal_zero_matsubara_polarization_quark_l_thermal_part_landau, even_mu_gluon_thermal_zero_matsubara_polarization_quark_t_thermal_part_landau, even_mu_gluon_thermal_zero_matsubara_polarization_quark_l_thermal_part_zero_temp_landau, even_mu_gluon_thermal_zero_matsubara_polarization_quark_t_thermal_part_zero_temp_landau]

theorem even_mu_qcd_thermal_zero_matsubara_gluon_dressing_l_landau_w_field_config (ig : Integrator) (k : Consts ℝ) (p : ℝ) (beta : ℝ) (mu : ℝ) (f0 : ℝ) (config : FieldConfig) :
    qcd.thermal.zero_matsubara.gluon.dressing_l_landau_w_field_config ig k p beta (-mu) f0 config = qcd.thermal.zero_matsubara.gluon.dressing_l_landau_w_field_config ig k p beta mu f0 config := by
  simp only [qcd.thermal.zero_matsubara.gluon.dressing_l_landau_w_field_config, even_mu_qcd_thermal_zero_matsubara_gluon_dressing_l_inv_landau_w_field_config]

theorem even_mu_qcd_thermal_zero_matsubara_gluon_dressing_t_landau_w_field_config (ig : Integrator) (k : Consts ℝ) (p : ℝ) (beta : ℝ) (mu : ℝ) (f0 : ℝ) (config : FieldConfig) :
    qcd.thermal.zero_matsubara.gluon.dressing_t_landau_w_field_config ig k p beta (-mu) f0 config = qcd.thermal.zero_matsubara.gluon.dressing_t_landau_w_field_config ig k p beta mu f0 config := by
  simp only [qcd.thermal.zero_matsubara.gluon.dressing_t_landau_w_field_config, even_mu_qcd_thermal_zero_matsubara_gluon_dressing_t_inv_landau_w_field_config]

theorem even_mu_qcd_thermal_zero_matsubara_gluon_propagator_l_landau_w_field_config (ig : Integrator) (k : Consts ℝ) (p : ℝ) (beta : ℝ) (mu : ℝ) (f0 : ℝ) (config : FieldConfig) :
    qcd.thermal.zero_matsubara.gluon.propagator_l_landau_w_field_config ig k p beta (-mu) f0 config = qcd.thermal.zero_matsubara.gluon.propagator_l_landau_w_field_config ig k p beta mu f0 config := by
  simp only [qcd.thermal.zero_matsubara.gluon.propagator_l_landau_w_field_config, even_mu_qcd_thermal_zero_matsubara_gluon_dressing_l_landau_w_field_config]

theorem even_mu_qcd_thermal_zero_matsubara_gluon_propagator_t_landau_w_field_config (ig : Integrator) (k : Consts ℝ) (p : ℝ) (beta : ℝ) (mu : ℝ) (f0 : ℝ) (config : FieldConfig) :
    qcd.thermal.zero_matsubara.gluon.propagator_t_landau_w_field_config ig k p beta (-mu) f0 config = qcd.thermal.zero_matsubara.gluon.propagator_t_landau_w_field_config ig k p beta mu f0 config := by
  simp only [qcd.thermal.zero_matsubara.gluon.propagator_t_landau_w_field_config, even_mu_qcd_thermal_zero_matsubara_gluon_dressing_t_landau_w_field_config]

theorem even_mu_qcd_thermal_zero_matsubara_gluon_dressing_l_inv_zero_temp_landau_w_field_config (ig : Integrator) (k : Consts ℝ) (p : ℝ) (mu : ℝ) (f0 : ℝ) (config : FieldConfig) :
    qcd.thermal.zero_matsubara.gluon.dressing_l_inv_zero_temp_landau_w_field_config ig k p (-mu) f0 config = qcd.thermal.zero_matsubara.gluon.dressing_l_inv_zero_temp_landau_w_field_config ig k p mu f0 config := by
  simp only [qcd.thermal.zero_matsubara.gluon.dressing_l_inv_zero_temp_landau_w_field_config, even_mu_gluon_thermal_zero_matsubara_polarization_quark_l_thermal_part_landau, even_mu_gluon_thermal_zero_matsubara_polarization_quark_t_thermal_part_landau, even_mu_gluon_thermal_zero_matsubara_polarization_quark_l_thermal_part_zero_temp_landau, even_mu_gluon_thermal_zero_matsubara_polarization_quark_t_thermal_part_zero_temp_landau]

theorem even_mu_qcd_thermal_zero_matsubara_gluon_dressing_t_inv_zero_temp_landau_w_field_config (ig : Integrator) (k : Consts ℝ) (p : ℝ) (mu : ℝ) (f0 : ℝ) (config : FieldConfig) :
    qcd.thermal.zero_matsubara.gluon.dressing_t_inv_zero_temp_landau_w_field_config ig k p (-mu) f0 config = qcd.thermal.zero_matsubara.gluon.dressing_t_inv_zero_temp_landau_w_field_config ig k p mu f0 config := by
  simp only [qcd.thermal.zero_matsubara.gluon.dressing_t_inv_zero_temp_landau_w_field_config, even_mu_gluon_thermal_zero_matsubara_polarization_quark_l_thermal_part_landau, even_mu_gluon_thermal_zero_matsubara_polarization_quark_t_thermal_part_landau, even_mu_gluon_thermal_zero_matsubara_polarization_quark_l_thermal_part_zero_temp_landau, even_mu_gluon_thermal_zero_matsubara_polarization_quark_t_thermal_part_zero_temp_landau]

theorem even_mu_qcd_thermal_zero_matsubara_gluon_dressing_l_zero_temp_landau_w_field_config (ig : Integrator) (k : Consts ℝ) (p : ℝ) (mu : ℝ) (f0 : ℝ) (config : FieldConfig) :
    qcd.thermal.zero_matsubara.gluon.dressing_l_zero_temp_landau_w_field_config ig k p (-mu) f0 config = qcd.thermal.zero_matsubara.gluon.dressing_l_zero_temp_landau_w_field_config ig k p mu f0 config := by
  simp only [qcd.thermal.zero_matsubara.gluon.dressing_l_zero_temp_landau_w_field_config, even_mu_qcd_thermal_zero_matsubara_gluon_dressing_l_inv_zero_temp_landau_w_field_config]

theorem even_mu_qcd_thermal_zero_matsubara_gluon_dressing_t_zero_temp_landau_w_field_config (ig : Integrator) (k : Consts ℝ) (p : ℝ) (mu : ℝ) (f0 : ℝ) (config : FieldConfig) :
    qcd.thermal.zero_matsubara.gluon.dressing_t_zero_temp_landau_w_field_config ig k p (-mu) f0 config = qcd.thermal.zero_matsubara.gluon.dressing_t_zero_temp_landau_w_field_config ig k p mu f0 config := by
  simp only [qcd.thermal.zero_matsubara.gluon.dressing_t_zero_temp_landau_w_field_config, even_mu_qcd_thermal_zero_matsubara_gluon_dressing_t_inv_zero_temp_landau_w_field_config]

theorem even_mu_qcd_thermal_zero_matsubara_gluon_propagator_l_zero_temp_landau_w_field_config (ig : Integrator) (k : Consts ℝ) (p : ℝ) (mu : ℝ) (f0 : ℝ) (config : FieldConfig) :
    qcd.thermal.zero_matsubara.gluon.propagator_l_zero_temp_landau_w_field_config ig k p (-mu) f0 config = qcd.thermal.zero_matsubara.gluon.propagator_l_zero_temp_landau_w_field_config ig k p mu f0 config := by
  simp only [qcd.thermal.zero_matsubara.gluon.propagator_l_zero_temp_landau_w_field_config, even_mu_qcd_thermal_zero_matsubara_gluon_dressing_l_zero_temp_landau_w_field_config]

theorem even_mu_qcd_thermal_zero_matsubara_gluon_propagator_t_zero_temp_landau_w_field_config (ig : Integrator) (k : Consts ℝ) (p : ℝ) (mu : ℝ) (f0 : ℝ) (config : FieldConfig) :
    qcd.thermal.zero_matsubara.gluon.propagator_t_zero_temp_landau_w_field_config ig k p (-mu) f0 config = qcd.thermal.zero_matsubara.gluon.propagator_t_zero_temp_landau_w_field_config ig k p mu f0 config := by
  simp only [qcd.thermal.zero_matsubara.gluon.propagator_t_zero_temp_landau_w_field_config, even_mu_qcd_thermal_zero_matsubara_gluon_dressing_t_zero_temp_landau_w_field_config]

/-- **C45**: `qcd::thermal::zero_matsubara::gluon` is unchanged by `mu → -mu`. -/
theorem C45_qcd_thermal_zero_matsubara_gluon (ig : Integrator) (k : Consts ℝ) :
    (∀ (p : ℝ) (m : ℝ) (mq : ℝ) (beta : ℝ) (mu : ℝ) (f0 : ℝ), qcd.thermal.zero_matsubara.gluon.dressing_l_inv_landau ig k p m mq beta (-mu) f0 =
      qcd.thermal.zero_matsubara.gluon.dressing_l_inv_landau ig k p m mq beta mu f0) ∧
    (∀ (p : ℝ) (m : ℝ) (mq : ℝ) (beta : ℝ) (mu : ℝ) (f0 : ℝ), qcd.thermal.zero_matsubara.gluon.dressing_t_inv_landau ig k p m mq beta (-mu) f0 =
      qcd.thermal.zero_matsubara.gluon.dressing_t_inv_landau ig k p m mq beta mu f0) ∧
    (∀ (p : ℝ) (m : ℝ) (mq : ℝ) (beta : ℝ) (mu : ℝ) (f0 : ℝ), qcd.thermal.zero_matsubara.gluon.dressing_l_landau ig k p m mq beta (-mu) f0 =
      qcd.thermal.zero_matsubara.gluon.dressing_l_landau ig k p m mq beta mu f0) ∧
    (∀ (p : ℝ) (m : ℝ) (mq : ℝ) (beta : ℝ) (mu : ℝ) (f0 : ℝ), qcd.thermal.zero_matsubara.gluon.dressing_t_landau ig k p m mq beta (-mu) f0 =
      qcd.thermal.zero_matsubara.gluon.dressing_t_landau ig k p m mq beta mu f0) ∧
    (∀ (p : ℝ) (m : ℝ) (mq : ℝ) (beta : ℝ) (mu : ℝ) (f0 : ℝ), qcd.thermal.zero_matsubara.gluon.propagator_l_landau ig k p m mq beta (-mu) f0 =
      qcd.thermal.zero_matsubara.gluon.propagator_l_landau ig k p m mq beta mu f0) ∧
    (∀ (p : ℝ) (m : ℝ) (mq : ℝ) (beta : ℝ) (mu : ℝ) (f0 : ℝ), qcd.thermal.zero_matsubara.gluon.propagator_t_landau ig k p m mq beta (-mu) f0 =
      qcd.thermal.zero_matsubara.gluon.propagator_t_landau ig k p m mq beta mu f0) ∧
    (∀ (p : ℝ) (m : ℝ) (mq : ℝ) (mu : ℝ) (f0 : ℝ), qcd.thermal.zero_matsubara.gluon.dressing_l_inv_zero_temp_landau ig k p m mq (-mu) f0 =
      qcd.thermal.zero_matsubara.gluon.dressing_l_inv_zero_temp_landau ig k p m mq mu f0) ∧
    (∀ (p : ℝ) (m : ℝ) (mq : ℝ) (mu : ℝ) (f0 : ℝ), qcd.thermal.zero_matsubara.gluon.dressing_t_inv_zero_temp_landau ig k p m mq (-mu) f0 =
      qcd.thermal.zero_matsubara.gluon.dressing_t_inv_zero_temp_landau ig k p m mq mu f0) ∧
    (∀ (p : ℝ) (m : ℝ) (mq : ℝ) (mu : ℝ) (f0 : ℝ), qcd.thermal.zero_matsubara.gluon.dressing_l_zero_temp_landau ig k p m mq (-mu) f0 =
      qcd.thermal.zero_matsubara.gluon.dressing_l_zero_temp_landau ig k p m mq mu f0) ∧
    (∀ (p : ℝ) (m : ℝ) (mq : ℝ) (mu : ℝ) (f0 : ℝ), qcd.thermal.zero_matsubara.gluon.dressing_t_zero_temp_landau ig k p m mq (-mu) f0 =
      qcd.thermal.zero_matsubara.gluon.dressing_t_zero_temp_landau ig k p m mq mu f0) ∧
    (∀ (p : ℝ) (m : ℝ) (mq : ℝ) (mu : ℝ) (f0 : ℝ), qcd.thermal.zero_matsubara.gluon.propagator_l_zero_temp_landau ig k p m mq (-mu) f0 =
      qcd.thermal.zero_matsubara.gluon.propagator_l_zero_temp_landau ig k p m mq mu f0) ∧
    (∀ (p : ℝ) (m : ℝ) (mq : ℝ) (mu : ℝ) (f0 : ℝ), qcd.thermal.zero_matsubara.gluon.propagator_t_zero_temp_landau ig k p m mq (-mu) f0 =
      qcd.thermal.zero_matsubara.gluon.propagator_t_zero_temp_landau ig k p m mq mu f0) ∧
    (∀ (p : ℝ) (beta : ℝ) (mu : ℝ) (f0 : ℝ) (config : FieldConfig), qcd.thermal.zero_matsubara.gluon.dressing_l_inv_landau_w_field_config ig k p beta (-mu) f0 config =
      qcd.thermal.zero_matsubara.gluon.dressing_l_inv_landau_w_field_config ig k p beta mu f0 config) ∧
    (∀ (p : ℝ) (beta : ℝ) (mu : ℝ) (f0 : ℝ) (config : FieldConfig), qcd.thermal.zero_matsubara.gluon.dressing_t_inv_landau_w_field_config ig k p beta (-mu) f0 config =
      qcd.thermal.zero_matsubara.gluon.dressing_t_inv_landau_w_field_config ig k p beta mu f0 config) ∧
    (∀ (p : ℝ) (beta : ℝ) (mu : ℝ) (f0 : ℝ) (config : FieldConfig), qcd.thermal.zero_matsubara.gluon.dressing_l_landau_w_field_config ig k p beta (-mu) f0 config =
      qcd.thermal.zero_matsubara.gluon.dressing_l_landau_w_field_config ig k p beta mu f0 config) ∧
    (∀ (p : ℝ) (beta : ℝ) (mu : ℝ) (f0 : ℝ) (config : FieldConfig), qcd.thermal.zero_matsubara.gluon.dressing_t_landau_w_field_config ig k p beta (-mu) f0 config =
      qcd.thermal.zero_matsubara.gluon.dressing_t_landau_w_field_config ig k p beta mu f0 config) ∧
    (∀ (p : ℝ) (beta : ℝ) (mu : ℝ) (f0 : ℝ) (config : FieldConfig), qcd.thermal.zero_matsubara.gluon.propagator_l_landau_w_field_config ig k p beta (-mu) f0 config =
      qcd.thermal.zero_matsubara.gluon.propagator_l_landau_w_field_config ig k p beta mu f0 config) ∧
    (∀ (p : ℝ) (beta : ℝ) (mu : ℝ) (f0 : ℝ) (config : FieldConfig), qcd.thermal.zero_matsubara.gluon.propagator_t_landau_w_field_config ig k p beta (-mu) f0 config =
      qcd.thermal.zero_matsubara.gluon.propagator_t_landau_w_field_config ig k p beta mu f0 config) ∧
    (∀ (p : ℝ) (mu : ℝ) (f0 : ℝ) (config : FieldConfig), qcd.thermal.zero_matsubara.gluon.dressing_l_inv_zero_temp_landau_w_field_config ig k p (-mu) f0 config =
      qcd.thermal.zero_matsubara.gluon.dressing_l_inv_zero_temp_landau_w_field_config ig k p mu f0 config) ∧
    (∀ (p : ℝ) (mu : ℝ) (f0 : ℝ) (config : FieldConfig), qcd.thermal.zero_matsubara.gluon.dressing_t_inv_zero_temp_landau_w_field_config ig k p (-mu) f0 config =
      qcd.thermal.zero_matsubara.gluon.dressing_t_inv_zero_temp_landau_w_field_config ig k p mu f0 config) ∧
    (∀ (p : ℝ) (mu : ℝ) (f0 : ℝ) (config : FieldConfig), qcd.thermal.zero_matsubara.gluon.dressing_l_zero_temp_landau_w_field_config ig k p (-mu) f0 config =
      qcd.thermal.zero_matsubara.gluon.dressing_l_zero_temp_landau_w_field_config ig k p mu f0 config) ∧
    (∀ (p : ℝ) (mu : ℝ) (f0 : ℝ) (config : FieldConfig), qcd.thermal.zero_matsubara.gluon.dressing_t_zero_temp_landau_w_field_config ig k p (-mu) f0 config =
      qcd.thermal.zero_matsubara.gluon.dressing_t_zero_temp_landau_w_field_config ig k p mu f0 config) ∧
    (∀ (p : ℝ) (mu : ℝ) (f0 : ℝ) (config : FieldConfig), qcd.thermal.zero_matsubara.gluon.propagator_l_zero_temp_landau_w_field_config ig k p (-mu) f0 config =
      qcd.thermal.zero_matsubara.gluon.propagator_l_zero_temp_landau_w_field_config ig k p mu f0 config) ∧
    (∀ (p : ℝ) (mu : ℝ) (f0 : ℝ) (config : FieldConfig), qcd.thermal.zero_matsubara.gluon.propagator_t_zero_temp_landau_w_field_config ig k p (-mu) f0 config =
      qcd.thermal.zero_matsubara.gluon.propagator_t_zero_temp_landau_w_field_config ig k p mu f0 config) := by
  exact ⟨even_mu_qcd_thermal_zero_matsubara_gluon_dressing_l_inv_landau ig k, even_mu_qcd_thermal_zero_matsubara_gluon_dressing_t_inv_landau ig k, even_mu_qcd_thermal_zero_matsubara_gluon_dressing_l_landau ig k, even_mu_qcd_thermal_zero_matsubara_gluon_dressing_t_landau ig k, even_mu_qcd_thermal_zero_matsubara_gluon_propagator_l_landau ig k, even_mu_qcd_thermal_zero_matsubara_gluon_propagator_t_landau ig k, even_mu_qcd_thermal_zero_matsubara_gluon_dressing_l_inv_zero_temp_landau ig k, even_mu_qcd_thermal_zero_matsubara_gluon_dressing_t_inv_zero_temp_landau ig k, even_mu_qcd_thermal_zero_matsubara_gluon_dressing_l_zero_temp_landau ig k, even_mu_qcd_thermal_zero_matsubara_gluon_dressing_t_zero_temp_landau ig k, even_mu_qcd_thermal_zero_matsubara_gluon_propagator_l_zero_temp_landau ig k, even_mu_qcd_thermal_zero_matsubara_gluon_propagator_t_zero_temp_landau ig k, even_mu_qcd_thermal_zero_matsubara_gluon_dressing_l_inv_landau_w_field_config ig k, even_mu_qcd_thermal_zero_matsubara_gluon_dressing_t_inv_landau_w_field_config ig k, even_mu_qcd_thermal_zero_matsubara_gluon_dressing_l_landau_w_field_config ig k, even_mu_qcd_thermal_zero_matsubara_gluon_dressing_t_landau_w_field_config ig k, even_mu_qcd_thermal_zero_matsubara_gluon_propagator_l_landau_w_field_config ig k, even_mu_qcd_thermal_zero_matsubara_gluon_propagator_t_landau_w_field_config ig k, even_mu_qcd_thermal_zero_matsubara_gluon_dressing_l_inv_zero_temp_landau_w_field_config ig k, even_mu_qcd_thermal_zero_matsubara_gluon_dressing_t_inv_zero_temp_landau_w_field_config ig k, even_mu_qcd_thermal_zero_matsubara_gluon_dressing_l_zero_temp_landau_w_field_config ig k, even_mu_qcd_thermal_zero_matsubara_gluon_dressing_t_zero_temp_landau_w_field_config ig k, even_mu_qcd_thermal_zero_matsubara_gluon_propagator_l_zero_temp_landau_w_field_config ig k, even_mu_qcd_thermal_zero_matsubara_gluon_propagator_t_zero_temp_landau_w_field_config ig k⟩

theorem even_mu_qcd_thermal_zero_momentum_gluon_dressing_l_inv_landau {T : Type} [Num T] (ig : Integrator) (k : Consts ℝ) (om : T) (m : ℝ) (mq : ℝ) (beta : ℝ) (mu : ℝ) (f0 : ℝ) :
    qcd.thermal.zero_momentum.gluon.dressing_l_inv_landau ig k om m mq beta (-mu) f0 = qcd.thermal.zero_momentum.gluon.dressing_l_inv_landau ig k om m mq beta mu f0 := by
  simp only [qcd.thermal.zero_momentum.gluon.dressing_l_inv_landau, even_mu_gluon_thermal_zero_momentum_polarization_quark_l_thermal_part_landau, even_mu_gluon_thermal_zero_momentum_polarization_quark_t_thermal_part_landau, even_mu_gluon_thermal_zero_momentum_polarization_quark_l_thermal_part_zero_temp_landau, even_mu_gluon_thermal_zero_momentum_polarization_quark_t_thermal_part_zero_temp_landau]

theorem even_mu_qcd_thermal_zero_momentum_gluon_dressing_t_inv_landau {T : Type} [Num T] (ig : Integrator) (k : Consts ℝ) (om : T) (m : ℝ) (mq : ℝ) (beta : ℝ) (mu : ℝ) (f0 : ℝ) :
    qcd.thermal.zero_momentum.gluon.dressing_t_inv_landau ig k om m mq beta (-mu) f0 = qcd.thermal.zero_momentum.gluon.dressing_t_inv_landau ig k om m mq beta mu f0 := by
  simp only [qcd.thermal.zero_momentum.gluon.dressing_t_inv_landau, even_mu_gluon_thermal_zero_momentum_polarization_quark_l_thermal_part_landau, even_mu_gluon_thermal_zero_momentum_polarization_quark_t_thermal_part_landau, even_mu_gluon_thermal_zero_momentum_polarization_quark_l_thermal_part_zero_temp_landau, even_mu_gluon_thermal_zero_momentum_polarization_quark_t_thermal_part_zero_temp_landau, qcd.thermal.zero_momentum.gluon.dressing_l_inv_landau]

theorem even_mu_qcd_thermal_zero_momentum_gluon_dressing_l_landau {T : Type} [Num T] (ig : Integrator) (k : Consts ℝ) (om : T) (m : ℝ) (mq : ℝ) (beta : ℝ) (mu : ℝ) (f0 : ℝ) :
    qcd.thermal.zero_momentum.gluon.dressing_l_landau ig k om m mq beta (-mu) f0 = qcd.thermal.zero_momentum.gluon.dressing_l_landau ig k om m mq beta mu f0 := by
  simp only [qcd.thermal.zero_momentum.gluon.dressing_l_landau, even_mu_qcd_thermal_zero_momentum_gluon_dressing_l_inv_landau]

theorem even_mu_qcd_thermal_zero_momentum_gluon_dressing_t_landau {T : Type} [Num T] (ig : Integrator) (k : Consts ℝ) (om : T) (m : ℝ) (mq : ℝ) (beta : ℝ) (mu : ℝ) (f0 : ℝ) :
    qcd.thermal.zero_momentum.gluon.dressing_t_landau ig k om m mq beta (-mu) f0 = qcd.thermal.zero_momentum.gluon.dressing_t_landau ig k om m mq beta mu f0 := by
  simp only [qcd.thermal.zero_momentum.gluon.dressing_t_landau, even_mu_qcd_thermal_zero_momentum_gluon_dressing_t_inv_landau]

theorem even_mu_qcd_thermal_zero_momentum_gluon_propagator_l_landau {T : Type} [Num T] (ig : Integrator) (k : Consts ℝ) (om : T) (m : ℝ) (mq : ℝ) (beta : ℝ) (mu : ℝ) (f0 : ℝ) :
    qcd.thermal.zero_momentum.gluon.propagator_l_landau ig k om m mq beta (-mu) f0 = qcd.thermal.zero_momentum.gluon.propagator_l_landau ig k om m mq beta mu f0 := by
  simp only [qcd.thermal.zero_momentum.gluon.propagator_l_landau, even_mu_qcd_thermal_zero_momentum_gluon_dressing_l_landau]

theorem even_mu_qcd_thermal_zero_momentum_gluon_propagator_t_landau {T : Type} [Num T] (ig : Integrator) (k : Consts ℝ) (om : T) (m : ℝ) (mq : ℝ) (beta : ℝ) (mu : ℝ) (f0 : ℝ) :
    qcd.thermal.zero_momentum.gluon.propagator_t_landau ig k om m mq beta (-mu) f0 = qcd.thermal.zero_momentum.gluon.propagator_t_landau ig k om m mq beta mu f0 := by
  simp only [qcd.thermal.zero_momentum.gluon.propagator_t_landau, even_mu_qcd_thermal_zero_momentum_gluon_dressing_t_landau]

theorem even_mu_qcd_thermal_zero_momentum_gluon_dressing_l_inv_zero_temp_landau {T : Type} [Num T] (ig : Integrator) (k : Consts ℝ) (om : T) (m : ℝ) (mq : ℝ) (mu : ℝ) (f0 : ℝ) :
    qcd.thermal.zero_momentum.gluon.dressing_l_inv_zero_temp_landau ig k om m mq (-mu) f0 = qcd.thermal.zero_momentum.gluon.dressing_l_inv_zero_temp_landau ig k om m mq mu f0 := by
  simp only [qcd.thermal.zero_momentum.gluon.dressing_l_inv_zero_temp_landau, even_mu_gluon_thermal_zero_momentum_polarization_quark_l_thermal_part_landau, even_mu_gluon_thermal_zero_momentum_polarization_quark_t_thermal_part_landau, even_mu_gluon_thermal_zero_momentum_polarization_quark_l_thermal_part_zero_temp_landau, even_mu_gluon_thermal_zero_momentum_polarization_quark_t_thermal_part_zero_temp_landau]

theorem even_mu_qcd_thermal_zero_momentum_gluon_dressing_t_inv_zero_temp_landau {T : Type} [Num T] (ig : Integrator) (k : Consts ℝ) (om : T) (m : ℝ) (mq : ℝ) (mu : ℝ) (f0 : ℝ) :
    qcd.thermal.zero_momentum.gluon.dressing_t_inv_zero_temp_landau ig k om m mq (-mu) f0 = qcd.thermal.zero_momentum.gluon.dressing_t_inv_zero_temp_landau ig k om m mq mu f0 := by
  simp only [qcd.thermal.zero_momentum.gluon.dressing_t_inv_zero_temp_landau, even_mu_gluon_thermal_zero_momentum_polarization_quark_l_thermal_part_landau, even_mu_gluon_thermal_zero_momentum_polarization_quark_t_thermal_part_landau, even_mu_gluon_thermal_zero_momentum_polarization_quark_l_thermal_part_zero_temp_landau, even_mu_gluon_thermal_zero_momentum_polarization_quark_t_thermal_part_zero_temp_landau, qcd.thermal.zero_momentum.gluon.dressing_l_inv_zero_temp_landau]

theorem even_mu_qcd_thermal_zero_momentum_gluon_dressing_l_zero_temp_landau {T : Type} [Num T] (ig : Integrator) (k : Consts ℝ) (om : T) (m : ℝ) (mq : ℝ) (mu : ℝ) (f0 : ℝ) :
    qcd.thermal.zero_momentum.gluon.dressing_l_zero_temp_landau ig k om m mq (-mu) f0 = qcd.thermal.zero_momentum.gluon.dressing_l_zero_temp_landau ig k om m mq mu f0 := by
  simp only [qcd.thermal.zero_momentum.gluon.dressing_l_zero_temp_landau, even_mu_qcd_thermal_zero_momentum_gluon_dressing_l_inv_zero_temp_landau]

theorem even_mu_qcd_thermal_zero_momentum_gluon_dressing_t_zero_temp_landau {T : Type} [Num T] (ig : Integrator) (k : Consts ℝ) (om : T) (m : ℝ) (mq : ℝ) (mu : ℝ) (f0 : ℝ) :
    qcd.thermal.zero_momentum.gluon.dressing_t_zero_temp_landau ig k om m mq (-mu) f0 = qcd.thermal.zero_momentum.gluon.dressing_t_zero_temp_landau ig k om m mq mu f0 := by
  simp only [qcd.thermal.zero_momentum.gluon.dressing_t_zero_temp_landau, even_mu_qcd_thermal_zero_momentum_gluon_dressing_t_inv_zero_temp_landau]

theorem even_mu_qcd_thermal_zero_momentum_gluon_propagator_l_zero_temp_landau {T : Type} [Num T] (ig : Integrator) (k : Consts ℝ) (om : T) (m : ℝ) (mq : ℝ) (mu : ℝ) (f0 : ℝ) :
    qcd.thermal.zero_momentum.gluon.propagator_l_zero_temp_landau ig k om m mq (-mu) f0 = qcd.thermal.zero_momentum.gluon.propagator_l_zero_temp_landau ig k om m mq mu f0 := by
  simp only [qcd.thermal.zero_momentum.gluon.propagator_l_zero_temp_landau, even_mu_qcd_thermal_zero_momentum_gluon_dressing_l_zero_temp_landau]

theorem even_mu_qcd_thermal_zero_momentum_gluon_propagator_t_zero_temp_landau {T : Type} [Num T] (ig : Integrator) (k : Consts ℝ) (om : T) (m : ℝ) (mq : ℝ) (mu : ℝ) (f0 : ℝ) :
    qcd.thermal.zero_momentum.gluon.propagator_t_zero_temp_landau ig k om m mq (-mu) f0 = qcd.thermal.zero_momentum.gluon.propagator_t_zero_temp_landau ig k om m mq mu f0 := by
  simp only [qcd.thermal.zero_momentum.gluon.propagator_t_zero_temp_landau, even_mu_qcd_thermal_zero_momentum_gluon_dressing_t_zero_temp_landau]

theorem even_mu_qcd_thermal_zero_momentum_gluon_dressing_l_inv_landau_w_field_config {T : Type} [Num T] (ig : Integrator) (k : Consts ℝ) (om : T) (beta : ℝ) (mu : ℝ) (f0 : ℝ) (config : FieldConfig) :
    qcd.thermal.zero_momentum.gluon.dressing_l_inv_landau_w_field_config ig k om beta (-mu) f0 config = qcd.thermal.zero_momentum.gluon.dressing_l_inv_landau_w_field_config ig k om beta mu f0 config := by
  simp only [qcd.thermal.zero_momentum.gluon.dressing_l_inv_landau_w_field_config, even_mu_gluon_thermal_zero_momentum_polarization_quark_l_thermal_part_landau, even_mu_gluon_thermal_zero_momentum_polarization_quark_t_thermal_part_landau, even_mu_gluon_thermal_zero_momentum_polarization_quark_l_thermal_part_zero_temp_landau, even_mu_gluon_thermal_zero_momentum_polarization_quark_t_thermal_part_zero_temp_landau]

theorem even_mu_qcd_thermal_zero_momentum_gluon_dressing_t_inv_landau_w_field_config {T : Type} [Num T] (ig : Integrator) (k : Consts ℝ) (om : T) (beta : ℝ) (mu : ℝ) (f0 : ℝ) (config : FieldConfig) :
    qcd.thermal.zero_momentum.gluon.dressing_t_inv_landau_w_field_config ig k om beta (-mu) f0 config = qcd.thermal.zero_momentum.gluon.dressing_t_inv_landau_w_field_config ig k om beta mu f0 config := by
  simp only [qcd.thermal.zero_momentum.gluon.dressing_t_inv_landau_w_field_config, even_mu_gluon_thermal_zero_momentum_polarization_quark_l_thermal_part_landau, even_mu_gluon_thermal_zero_momentum_polarization_quark_t_thermal_part_landau, even_mu_gluon_thermal_zero_momentum_polarization_quark_l_thermal_part_zero_temp_landau, even_mu_gluon_thermal_zero_momentum_polarization_quark_t_thermal_part_zero_temp_landau, qcd.thermal.zero_momentum.gluon.dressing_l_inv_landau_w_field_config]

theorem even_mu_qcd_thermal_zero_momentum_gluon_dressing_l_landau_w_field_config {T : Type} [Num T] (ig : Integrator) (k : Consts ℝ) (om : T) (beta : ℝ) (mu : ℝ) (f0 : ℝ) (config : FieldConfig) :
    qcd.thermal.zero_momentum.gluon.dressing_l_landau_w_field_config ig k om beta (-mu) f0 config = qcd.thermal.zero_momentum.gluon.dressing_l_landau_w_field_config ig k om beta mu f0 config := by
  simp only [qcd.thermal.zero_momentum.gluon.dressing_l_landau_w_field_config, even_mu_qcd_thermal_zero_momentum_gluon_dressing_l_inv_landau_w_field_config]

theorem even_mu_qcd_thermal_zero_momentum_gluon_dressing_t_landau_w_field_config {T : Type} [Num T] (ig : Integrator) (k : Consts ℝ) (om : T) (beta : ℝ) (mu : ℝ) (f0 : ℝ) (config : FieldConfig) :
    qcd.thermal.zero_momentum.gluon.dressing_t_landau_w_field_config ig k om beta (-mu) f0 config = qcd.thermal.zero_momentum.gluon.dressing_t_landau_w_field_config ig k om beta mu f0 config := by
  simp only [qcd.thermal.zero_momentum.gluon.dressing_t_landau_w_field_config, even_mu_qcd_thermal_zero_momentum_gluon_dressing_t_inv_landau_w_field_config]

theorem even_mu_qcd_thermal_zero_momentum_gluon_propagator_l_landau_w_field_config {T : Type} [Num T] (ig : Integrator) (k : Consts ℝ) (om : T) (beta : ℝ) (mu : ℝ) (f0 : ℝ) (config : FieldConfig) :
    qcd.thermal.zero_momentum.gluon.propagator_l_landau_w_field_config ig k om beta (-mu) f0 config = qcd.thermal.zero_momentum.gluon.propagator_l_landau_w_field_config ig k om beta mu f0 config := by
  simp only [qcd.thermal.zero_momentum.gluon.propagator_l_landau_w_field_config, even_mu_qcd_thermal_zero_momentum_gluon_dressing_l_landau_w_field_config]

theorem even_mu_qcd_thermal_zero_momentum_gluon_propagator_t_landau_w_field_config {T : Type} [Num T] (ig : Integrator) (k : Consts ℝ) (om : T) (beta : ℝ) (mu : ℝ) (f0 : ℝ) (config : FieldConfig) :
    qcd.thermal.zero_momentum.gluon.propagator_t_landau_w_field_config ig k om beta (-mu) f0 config = qcd.thermal.zero_momentum.gluon.propagator_t_landau_w_field_config ig k om beta mu f0 config := by
  simp only [qcd.thermal.zero_momentum.gluon.propagator_t_landau_w_field_config, even_mu_qcd_thermal_zero_momentum_gluon_dressing_t_landau_w_field_config]

theorem even_mu_qcd_thermal_zero_momentum_gluon_dressing_l_inv_zero_temp_landau_w_field_config {T : Type} [Num T] (ig : Integrator) (k : Consts ℝ) (om : T) (mu : ℝ) (f0 : ℝ) (config : FieldConfig) :
    qcd.thermal.zero_momentum.gluon.dressing_l_inv_zero_temp_landau_w_field_config ig k om (-mu) f0 config = qcd.thermal.zero_momentum.gluon.dressing_l_inv_zero_temp_landau_w_field_config ig k om mu f0 config := by
  simp only [qcd.thermal.zero_momentum.gluon.dressing_l_inv_zero_temp_landau_w_field_config, even_mu_gluon_thermal_zero_momentum_polarization_quark_l_thermal_part_landau, even_mu_gluon_thermal_zero_momentum_polarization_quark_t_thermal_part_landau, even_mu_gluon_thermal_zero_momentum_polarization_quark_l_thermal_part_zero_temp_landau, even_mu_gluon_thermal_zero_momentum_polarization_quark_t_thermal_part_zero_temp_landau]

theorem even_mu_qcd_thermal_zero_momentum_gluon_dressing_t_inv_zero_temp_landau_w_field_config {T : Type} [Num T] (ig : Integrator) (k : Consts ℝ) (om : T) (mu : ℝ) (f0 : ℝ) (config : FieldConfig) :
    qcd.thermal.zero_momentum.gluon.dressing_t_inv_zero_temp_landau_w_field_config ig k om (-mu) f0 config = qcd.thermal.zero_momentum.gluon.dressing_t_inv_zero_temp_landau_w_field_config ig k om mu f0 config := by
  simp only [qcd.thermal.zero_momentum.gluon.dressing_t_inv_zero_temp_landau_w_field_config, even_mu_gluon_thermal_zero_momentum_polarization_quark_l_thermal_part_landau, even_mu_gluon_thermal_zero_momentum_polarization_quark_t_thermal_part_landau, even_mu_gluon_thermal_zero_momentum_polarization_quark_l_thermal_part_zero_temp_landau, even_mu_gluon_thermal_zero_momentum_polarization_quark_t_thermal_part_zero_temp_landau, qcd.thermal.zero_momentum.gluon.dressing_l_inv_zero_temp_landau_w_field_config]

theorem even_mu_qcd_thermal_zero_momentum_gluon_dressing_l_zero_temp_landau_w_field_config {T : Type} [Num T] (ig : Integrator) (k : Consts ℝ) (om : T) (mu : ℝ) (f0 : ℝ) (config : FieldConfig) :
    qcd.thermal.zero_momentum.gluon.dressing_l_zero_temp_landau_w_field_config ig k om (-mu) f0 config = qcd.thermal.zero_momentum.gluon.dressing_l_zero_temp_landau_w_field_config ig k om mu f0 config := by
  simp only [qcd.thermal.zero_momentum.gluon.dressing_l_zero_temp_landau_w_field_config, even_mu_qcd_thermal_zero_momentum_gluon_dressing_l_inv_zero_temp_landau_w_field_config]

theorem even_mu_qcd_thermal_zero_momentum_gluon_dressing_t_zero_temp_landau_w_field_config {T : Type} [Num T] (ig : Integrator) (k : Consts ℝ) (om : T) (mu : ℝ) (f0 : ℝ) (config : FieldConfig) :
    qcd.thermal.zero_momentum.gluon.dressing_t_zero_temp_landau_w_field_config ig k om (-mu) f0 config = qcd.thermal.zero_momentum.gluon.dressing_t_zero_temp_landau_w_field_config ig k om mu f0 config := by
  simp only [qcd.thermal.zero_momentum.gluon.dressing_t_zero_temp_landau_w_field_config, even_mu_qcd_thermal_zero_momentum_gluon_dressing_t_inv_zero_temp_landau_w_field_config]

theorem even_mu_qcd_thermal_zero_momentum_gluon_propagator_l_zero_temp_landau_w_field_config {T : Type} [Num T] (ig : Integrator) (k : Consts ℝ) (om : T) (mu : ℝ) (f0 : ℝ) (config : FieldConfig) :
    qcd.thermal.zero_momentum.gluon.propagator_l_zero_temp_landau_w_field_config ig k om (-mu) f0 config = qcd.thermal.zero_momentum.gluon.propagator_l_zero_temp_landau_w_field_config ig k om mu f0 config := by
  simp only [qcd.thermal.zero_momentum.gluon.propagator_l_zero_temp_landau_w_field_config, even_mu_qcd_thermal_zero_momentum_gluon_dressing_l_zero_temp_landau_w_field_config]

theorem even_mu_qcd_thermal_zero_momentum_gluon_propagator_t_zero_temp_landau_w_field_config {T : Type} [Num T] (ig : Integrator) (k : Consts ℝ) (om : T) (mu : ℝ) (f0 : ℝ) (config : FieldConfig) :
    qcd.thermal.zero_momentum.gluon.propagator_t_zero_temp_landau_w_field_config ig k om (-mu) f0 config = qcd.thermal.zero_momentum.gluon.propagator_t_zero_temp_landau_w_field_config ig k om mu f0 config := by
  simp only [qcd.thermal.zero_momentum.gluon.propagator_t_zero_temp_landau_w_field_config, even_mu_qcd_thermal_zero_momentum_gluon_dressing_t_zero_temp_landau_w_field_config]

/-- **C45**: `qcd::thermal::zero_momentum::gluon` is unchanged by `mu → -mu`. -/
theorem C45_qcd_thermal_zero_momentum_gluon (ig : Integrator) (k : Consts ℝ) :
    (∀ (om : T) (m : ℝ) (mq : ℝ) (beta : ℝ) (mu : ℝ) (f0 : ℝ), qcd.thermal.zero_momentum.gluon.dressing_l_inv_landau ig k om m mq beta (-mu) f0 =
      qcd.thermal.zero_momentum.gluon.dressing_l_inv_landau ig k om m mq beta mu f0) ∧
    (∀ (om : T) (m : ℝ) (mq : ℝ) (beta : ℝ) (mu : ℝ) (f0 : ℝ), qcd.thermal.zero_momentum.gluon.dressing_t_inv_landau ig k om m mq beta (-mu) f0 =
      qcd.thermal.zero_momentum.gluon.dressing_t_inv_landau ig k om m mq beta mu f0) ∧
    (∀ (om : T) (m : ℝ) (mq : ℝ) (beta : ℝ) (mu : ℝ) (f0 : ℝ), qcd.thermal.zero_momentum.gluon.dressing_l_landau ig k om m mq beta (-mu) f0 =
      qcd.thermal.zero_momentum.gluon.dressing_l_landau ig k om m mq beta mu f0) ∧
    (∀ (om : T) (m : ℝ) (mq : ℝ) (beta : ℝ) (mu : ℝ) (f0 : ℝ), qcd.thermal.zero_momentum.gluon.dressing_t_landau ig k om m mq beta (-mu) f0 =
      qcd.thermal.zero_momentum.gluon.dressing_t_landau ig k om m mq beta mu f0) ∧
    (∀ (om : T) (m : ℝ) (mq : ℝ) (beta : ℝ) (mu : ℝ) (f0 : ℝ), qcd.thermal.zero_momentum.gluon.propagator_l_landau ig k om m mq beta (-mu) f0 =
      qcd.thermal.zero_momentum.gluon.propagator_l_landau ig k om m mq beta mu f0) ∧
    (∀ (om : T) (m : ℝ) (mq : ℝ) (beta : ℝ) (mu : ℝ) (f0 : ℝ), qcd.thermal.zero_momentum.gluon.propagator_t_landau ig k om m mq beta (-mu) f0 =
      qcd.thermal.zero_momentum.gluon.propagator_t_landau ig k om m mq beta mu f0) ∧
    (∀ (om : T) (m : ℝ) (mq : ℝ) (mu : ℝ) (f0 : ℝ), qcd.thermal.zero_momentum.gluon.dressing_l_inv_zero_temp_landau ig k om m mq (-mu) f0 =
      qcd.thermal.zero_momentum.gluon.dressing_l_inv_zero_temp_landau ig k om m mq mu f0) ∧
    (∀ (om : T) (m : ℝ) (mq : ℝ) (mu : ℝ) (f0 : ℝ), qcd.thermal.zero_momentum.gluon.dressing_t_inv_zero_temp_landau ig k om m mq (-mu) f0 =
      qcd.thermal.zero_momentum.gluon.dressing_t_inv_zero_temp_landau ig k om m mq mu f0) ∧
    (∀ (om : T) (m : ℝ) (mq : ℝ) (mu : ℝ) (f0 : ℝ), qcd.thermal.zero_momentum.gluon.dressing_l_zero_temp_landau ig k om m mq (-mu) f0 =
      qcd.thermal.zero_momentum.gluon.dressing_l_zero_temp_landau ig k om m mq mu f0) ∧
    (∀ (om : T) (m : ℝ) (mq : ℝ) (mu : ℝ) (f0 : ℝ), qcd.thermal.zero_momentum.gluon.dressing_t_zero_temp_landau ig k om m mq (-mu) f0 =
      qcd.thermal.zero_momentum.gluon.dressing_t_zero_temp_landau ig k om m mq mu f0) ∧
    (∀ (om : T) (m : ℝ) (mq : ℝ) (mu : ℝ) (f0 : ℝ), qcd.thermal.zero_momentum.gluon.propagator_l_zero_temp_landau ig k om m mq (-mu) f0 =
      qcd.thermal.zero_momentum.gluon.propagator_l_zero_temp_landau ig k om m mq mu f0) ∧
    (∀ (om : T) (m : ℝ) (mq : ℝ) (mu : ℝ) (f0 : ℝ), qcd.thermal.zero_momentum.gluon.propagator_t_zero_temp_landau ig k om m mq (-mu) f0 =
      qcd.thermal.zero_momentum.gluon.propagator_t_zero_temp_landau ig k om m mq mu f0) ∧
    (∀ (om : T) (beta : ℝ) (mu : ℝ) (f0 : ℝ) (config : FieldConfig), qcd.thermal.zero_momentum.gluon.dressing_l_inv_landau_w_field_config ig k om beta (-mu) f0 config =
      qcd.thermal.zero_momentum.gluon.dressing_l_inv_landau_w_field_config ig k om beta mu f0 config) ∧
    (∀ (om : T) (beta : ℝ) (mu : ℝ) (f0 : ℝ) (config : FieldConfig), qcd.thermal.zero_momentum.gluon.dressing_t_inv_landau_w_field_config ig k om beta (-mu) f0 config =
      qcd.thermal.zero_momentum.gluon.dressing_t_inv_landau_w_field_config ig k om beta mu f0 config) ∧
    (∀ (om : T) (beta : ℝ) (mu : ℝ) (f0 : ℝ) (config : FieldConfig), qcd.thermal.zero_momentum.gluon.dressing_l_landau_w_field_config ig k om beta (-mu) f0 config =
      qcd.thermal.zero_momentum.gluon.dressing_l_landau_w_field_config ig k om beta mu f0 config) ∧
    (∀ (om : T) (beta : ℝ) (mu : ℝ) (f0 : ℝ) (config : FieldConfig), qcd.thermal.zero_momentum.gluon.dressing_t_landau_w_field_config ig k om beta (-mu) f0 config =
      qcd.thermal.zero_momentum.gluon.dressing_t_landau_w_field_config ig k om beta mu f0 config) ∧
    (∀ (om : T) (beta : ℝ) (mu : ℝ) (f0 : ℝ) (config : FieldConfig), qcd.thermal.zero_momentum.gluon.propagator_l_landau_w_field_config ig k om beta (-mu) f0 config =
      qcd.thermal.zero_momentum.gluon.propagator_l_landau_w_field_config ig k om beta mu f0 config) ∧
    (∀ (om : T) (beta : ℝ) (mu : ℝ) (f0 : ℝ) (config : FieldConfig), qcd.thermal.zero_momentum.gluon.propagator_t_landau_w_field_config ig k om beta (-mu) f0 config =
      qcd.thermal.zero_momentum.gluon.propagator_t_landau_w_field_config ig k om beta mu f0 config) ∧
    (∀ (om : T) (mu : ℝ) (f0 : ℝ) (config : FieldConfig), qcd.thermal.zero_momentum.gluon.dressing_l_inv_zero_temp_landau_w_field_config ig k om (-mu) f0 config =
      qcd.thermal.zero_momentum.gluon.dressing_l_inv_zero_temp_landau_w_field_config ig k om mu f0 config) ∧
    (∀ (om : T) (mu : ℝ) (f0 : ℝ) (config : FieldConfig), qcd.thermal.zero_momentum.gluon.dressing_t_inv_zero_temp_landau_w_field_config ig k om (-mu) f0 config =
      qcd.thermal.zero_momentum.gluon.dressing_t_inv_zero_temp_landau_w_field_config ig k om mu f0 config) ∧
    (∀ (om : T) (mu : ℝ) (f0 : ℝ) (config : FieldConfig), qcd.thermal.zero_momentum.gluon.dressing_l_zero_temp_landau_w_field_config ig k om (-mu) f0 config =
      qcd.thermal.zero_momentum.gluon.dressing_l_zero_temp_landau_w_field_config ig k om mu f0 config) ∧
    (∀ (om : T) (mu : ℝ) (f0 : ℝ) (config : FieldConfig), qcd.thermal.zero_momentum.gluon.dressing_t_zero_temp_landau_w_field_config ig k om (-mu) f0 config =
      qcd.thermal.zero_momentum.gluon.dressing_t_zero_temp_landau_w_field_config ig k om mu f0 config) ∧
    (∀ (om : T) (mu : ℝ) (f0 : ℝ) (config : FieldConfig), qcd.thermal.zero_momentum.gluon.propagator_l_zero_temp_landau_w_field_config ig k om (-mu) f0 config =
      qcd.thermal.zero_momentum.gluon.propagator_l_zero_temp_landau_w_field_config ig k om mu f0 config) ∧
    (∀ (om : T) (mu : ℝ) (f0 : ℝ) (config : FieldConfig), qcd.thermal.zero_momentum.gluon.propagator_t_zero_temp_landau_w_field_config ig k om (-mu) f0 config =
      qcd.thermal.zero_momentum.gluon.propagator_t_zero_temp_landau_w_field_config ig k om mu f0 config) := by
  exact ⟨even_mu_qcd_thermal_zero_momentum_gluon_dressing_l_inv_landau ig k, even_mu_qcd_thermal_zero_momentum_gluon_dressing_t_inv_landau ig k, even_mu_qcd_thermal_zero_momentum_gluon_dressing_l_landau ig k, even_mu_qcd_thermal_zero_momentum_gluon_dressing_t_landau ig k, even_mu_qcd_thermal_zero_momentum_gluon_propagator_l_landau ig k, even_mu_qcd_thermal_zero_momentum_gluon_propagator_t_landau ig k, even_mu_qcd_thermal_zero_momentum_gluon_dressing_l_inv_zero_temp_landau ig k, even_mu_qcd_thermal_zero_momentum_gluon_dressing_t_inv_zero_temp_landau ig k, even_mu_qcd_thermal_zero_momentum_gluon_dressing_l_zero_temp_landau ig k, even_mu_qcd_thermal_zero_momentum_gluon_dressing_t_zero_temp_landau ig k, even_mu_qcd_thermal_zero_momentum_gluon_propagator_l_zero_temp_landau ig k, even_mu_qcd_thermal_zero_momentum_gluon_propagator_t_zero_temp_landau ig k, even_mu_qcd_thermal_zero_momentum_gluon_dressing_l_inv_landau_w_field_config ig k, even_mu_qcd_thermal_zero_momentum_gluon_dressing_t_inv_landau_w_field_config ig k, even_mu_qcd_thermal_zero_momentum_gluon_dressing_l_landau_w_field_config ig k, even_mu_qcd_thermal_zero_momentum_gluon_dressing_t_landau_w_field_config ig k, even_mu_qcd_thermal_zero_momentum_gluon_propagator_l_landau_w_field_config ig k, even_mu_qcd_thermal_zero_momentum_gluon_propagator_t_landau_w_field_config ig k, even_mu_qcd_thermal_zero_momentum_gluon_dressing_l_inv_zero_temp_landau_w_field_config ig k, even_mu_qcd_thermal_zero_momentum_gluon_dressing_t_inv_zero_temp_landau_w_field_config ig k, even_mu_qcd_thermal_zero_momentum_gluon_dressing_l_zero_temp_landau_w_field_config ig k, even_mu_qcd_thermal_zero_momentum_gluon_dressing_t_zero_temp_landau_w_field_config ig k, even_mu_qcd_thermal_zero_momentum_gluon_propagator_l_zero_temp_landau_w_field_config ig k, even_mu_qcd_thermal_zero_momentum_gluon_propagator_t_zero_temp_landau_w_field_config ig k⟩

end Qcd
