import Verif.Spec.ThermalDressing
import Verif.Props.QcdVacuum
import Verif.Props.ThermalDressing
import Verif.Props.VacuumComplex

/-! # C44: thermal QCD without quarks is thermal Yang-Mills; zero temperature; the two interfaces

Generated by a script. -/

set_option linter.unusedSimpArgs false
set_option linter.unusedTactic false
set_option linter.unreachableTactic false
set_option linter.unusedVariables false
set_option linter.unusedSectionVars false

namespace Qcd
open consts (Consts Integral get_default_integration_method)
variable {T T1 T2 : Type} [Num T] [Num T1] [Num T2]

/-! ### Helpers -/

theorem glob_nf0 (h : List (consts.Setter ℝ)) (hnf : (consts.after h).nf = 0) (s : T) (mq f0 : ℝ) :
    qcd.gluon.dressing_inv_landau (consts.after h) s mq f0 = ym.gluon.dressing_inv_landau s f0 := by
  have := C27_global h hnf s mq f0 0
  simp only [globalValues, ymValues, List.cons_append, List.cons.injEq] at this
  exact this.1

theorem conf_nf0 (k : Consts ℝ) (s : T) (f0 : ℝ) (nc : ℕ) (m : ℝ) (qs : List (ℕ × ℝ))
    (h : ∀ q ∈ qs, q.1 = 0) :
    qcd.gluon.dressing_inv_landau_w_field_config k s f0 (FieldConfig.new nc m qs)
      = ym.gluon.dressing_inv_landau s f0 := by
  have := C27_config k s f0 0 nc m qs h
  simp only [configValues, ymValues, List.cons_append, List.cons.injEq] at this
  exact this.1

theorem conf_single (h : List (consts.Setter ℝ)) (s : T) (m mq f0 : ℝ) :
    qcd.gluon.dressing_inv_landau_w_field_config (consts.after h) s f0
        (FieldConfig.new (consts.after h).nc m [((consts.after h).nf, mq)])
      = qcd.gluon.dressing_inv_landau (consts.after h) s (mq / m) f0 := by
  have := C28_interfaces_agree h s f0 0 m mq
  simp only [configValues, globalValues, List.cons.injEq] at this
  exact this.1

theorem sum_nf0 {F : Type} [Semiring F] (A : ℝ → F) (c : ℕ → F) (hc : c 0 = 0) (nc : ℕ) (m : ℝ)
    (qs : List (ℕ × ℝ)) (h : ∀ q ∈ qs, q.1 = 0) :
    ((FieldConfig.new nc m qs).quarks_internal.map (fun qi => A qi.mq * c qi.nf)).sum = 0 := by
  apply List.sum_eq_zero
  intro x hx
  simp only [FieldConfig.new, List.map_map, List.mem_map, Function.comp, QuarkInternal.new] at hx
  obtain ⟨q, hq, rfl⟩ := hx
  simp [h q hq, hc]

theorem sum_zero {F : Type} [Semiring F] (A : ℝ → F) (c : ℕ → F) (nc : ℕ) (m : ℝ)
    (qs : List (ℕ × ℝ)) (h : ∀ q ∈ qs, A q.2 = 0) :
    ((FieldConfig.new nc m qs).quarks_internal.map (fun qi => A qi.mq * c qi.nf)).sum = 0 := by
  apply List.sum_eq_zero
  intro x hx
  simp only [FieldConfig.new, List.map_map, List.mem_map, Function.comp, QuarkInternal.new] at hx
  obtain ⟨q, hq, rfl⟩ := hx
  simp [h q hq]

theorem sum_single {F : Type} [Semiring F] (A : ℝ → F) (c : ℕ → F) (nc nf : ℕ) (m mq : ℝ) :
    ((FieldConfig.new nc m [(nf, mq)]).quarks_internal.map (fun qi => A qi.mq * c qi.nf)).sum
      = A mq * c nf := by
  simp [FieldConfig.new, QuarkInternal.new]

/-- At zero momentum the two glue parts agree. -/
theorem glue_lt (ig : Integrator) (k : Consts ℝ) (om : T) (m beta : ℝ) :
    gluon.thermal.zero_momentum.polarization_glue_l_thermal_part_landau ig k om m beta =
      gluon.thermal.zero_momentum.polarization_glue_t_thermal_part_landau ig k om m beta :=
  (C42_gluon_thermal_zero_momentum ig).2.2.2.1 k om m beta

/-- The vacuum field-configuration function commutes with the promotion of a positive real. -/
theorem conf_ofReal (k : Consts ℝ) (s : ℝ) (hs : 0 < s) (f0 : ℝ) (nc : ℕ) (m : ℝ)
    (qs : List (ℕ × ℝ)) (hm : m ≠ 0) (hq : ∀ q ∈ qs, q.2 ≠ 0) :
    qcd.gluon.dressing_inv_landau_w_field_config k (s : ℂ) f0 (FieldConfig.new nc m qs)
      = ((qcd.gluon.dressing_inv_landau_w_field_config k s f0 (FieldConfig.new nc m qs) : ℝ) : ℂ) := by
  have := (C21_qcd k s hs f0 0 0 nc m qs hm hq).1
  simp only [configValues, List.map_cons, List.cons.injEq] at this
  exact this.1

theorem ym_ofReal (s : ℝ) (hs : 0 < s) (f0 : ℝ) :
    ym.gluon.dressing_inv_landau (s : ℂ) f0 = ((ym.gluon.dressing_inv_landau s f0 : ℝ) : ℂ) := by
  have := conf_ofReal (consts.after []) s hs f0 1 1 [] one_ne_zero (by simp)
  rwa [conf_nf0 _ _ _ _ _ _ (by simp), conf_nf0 _ _ _ _ _ _ (by simp)] at this

/-! ### qcd::thermal::gluon -/

/-- **C44** (`qcd::thermal::gluon`): with no fermions, after any history of setter calls, the six functions are
those of Yang-Mills theory, for every integrator. -/
theorem C44_no_fermions_general (ig : Integrator) (h : List (consts.Setter ℝ)) (hnf : (consts.after h).nf = 0)
    (om : T) (p : ℝ) (m mq beta mu f0 : ℝ) :
    qcd.thermal.gluon.values ig (consts.after h) om p m mq beta mu f0 = ym.thermal.gluon.values ig (consts.after h) om p m beta f0 := by
  simp only [qcd.thermal.gluon.values, ym.thermal.gluon.values, qcd.thermal.gluon.dressing_l_inv_landau, qcd.thermal.gluon.dressing_t_inv_landau, qcd.thermal.gluon.dressing_l_landau, qcd.thermal.gluon.dressing_t_landau, qcd.thermal.gluon.propagator_l_landau, qcd.thermal.gluon.propagator_t_landau, ym.thermal.gluon.dressing_l_inv_landau, ym.thermal.gluon.dressing_t_inv_landau, ym.thermal.gluon.dressing_l_landau, ym.thermal.gluon.dressing_t_landau, ym.thermal.gluon.propagator_l_landau, ym.thermal.gluon.propagator_t_landau,
    glob_nf0 h hnf, hnf, one_mul, Nat.cast_zero, ofR_zero, zero_mul, mul_zero, add_zero, zero_add, sub_zero, zero_div, one_div, ofR_complex, Complex.ofReal_zero, Complex.ofReal_one]

/-- **C44** (zero temperature, no fermions): the vacuum Yang-Mills values. -/
theorem C44_no_fermions_zero_temp_general (ig : Integrator) (h : List (consts.Setter ℝ))
    (hnf : (consts.after h).nf = 0) (om : T) (p : ℝ) (m mq mu f0 : ℝ) :
    qcd.thermal.gluon.zeroTempValues ig (consts.after h) om p m mq mu f0 =
      vacuumValues (toC (om * om + ofR (p * p))) (toC (ym.gluon.dressing_inv_landau ((om * om + ofR (p * p)) / ofR (m * m)) f0)) := by
  simp only [qcd.thermal.gluon.zeroTempValues, vacuumValues, qcd.thermal.gluon.dressing_l_inv_zero_temp_landau, qcd.thermal.gluon.dressing_t_inv_zero_temp_landau, qcd.thermal.gluon.dressing_l_zero_temp_landau, qcd.thermal.gluon.dressing_t_zero_temp_landau, qcd.thermal.gluon.propagator_l_zero_temp_landau, qcd.thermal.gluon.propagator_t_zero_temp_landau,
    glob_nf0 h hnf, hnf, one_mul, Nat.cast_zero, ofR_zero, zero_mul, mul_zero, add_zero, zero_add, sub_zero, zero_div, one_div, ofR_complex, Complex.ofReal_zero, Complex.ofReal_one, map_zero, map_inv₀, div_eq_inv_mul, div_eq_mul_inv, mul_comm]

/-- **C44** (zero temperature, `|mu| < |mq|`): the vacuum QCD values, for every integrator. -/
theorem C44_zero_density_general (ig : Integrator) (k : Consts ℝ) (om : T) (p : ℝ) (m mq mu f0 : ℝ) (hmu : |mu| < |mq|) :
    qcd.thermal.gluon.zeroTempValues ig k om p m mq mu f0 =
      vacuumValues (toC (om * om + ofR (p * p))) (toC (qcd.gluon.dressing_inv_landau k ((om * om + ofR (p * p)) / ofR (m * m)) (mq / m) f0)) := by
  simp only [qcd.thermal.gluon.zeroTempValues, vacuumValues, qcd.thermal.gluon.dressing_l_inv_zero_temp_landau, qcd.thermal.gluon.dressing_t_inv_zero_temp_landau, qcd.thermal.gluon.dressing_l_zero_temp_landau, qcd.thermal.gluon.dressing_t_zero_temp_landau, qcd.thermal.gluon.propagator_l_zero_temp_landau, qcd.thermal.gluon.propagator_t_zero_temp_landau,
    gluon.thermal.polarization_quark_l_thermal_part_zero_temp_landau, gluon.thermal.polarization_quark_t_thermal_part_zero_temp_landau, gluon.thermal.polarization_quark_l_thermal_part_zero_temp_landau_w_method, gluon.thermal.polarization_quark_t_thermal_part_zero_temp_landau_w_method, if_pos hmu, one_mul, Nat.cast_zero, ofR_zero, zero_mul, mul_zero, add_zero, zero_add, sub_zero, zero_div, one_div, ofR_complex, Complex.ofReal_zero, Complex.ofReal_one, map_inv₀, div_eq_inv_mul, div_eq_mul_inv, mul_comm]

/-- **C44** (configuration without quarks, complex frequency): every entry of the list has multiplicity 0, in particular the
empty list. -/
theorem C44_no_quarks_general_complex (ig : Integrator) (k : Consts ℝ) (om : ℂ) (p : ℝ) (beta mu f0 : ℝ) (nc : ℕ) (m : ℝ)
    (qs : List (ℕ × ℝ)) (h : ∀ q ∈ qs, q.1 = 0) :
    qcd.thermal.gluon.configValues ig k om p beta mu f0 (FieldConfig.new nc m qs) = ym.thermal.gluon.values ig k om p m beta f0 ∧
    qcd.thermal.gluon.configZeroTempValues ig k om p mu f0 (FieldConfig.new nc m qs) =
      vacuumValues (toC (om * om + ofR (p * p))) (toC (ym.gluon.dressing_inv_landau ((om * om + ofR (p * p)) / ofR (m * m)) f0)) := by
  have e2 := fun A : ℝ → ℂ => sum_nf0 A (fun n => (ofR (n : ℝ) : ℂ)) (by simp) nc m qs h
  have e3 : (FieldConfig.new nc m qs).gluon = m := rfl
  have z1 := e2 (fun mq => gluon.thermal.polarization_quark_l_thermal_part_landau ig k om p mq beta mu)
  have z2 := e2 (fun mq => gluon.thermal.polarization_quark_t_thermal_part_landau ig k om p mq beta mu)
  have z3 := e2 (fun mq => gluon.thermal.polarization_quark_l_thermal_part_zero_temp_landau ig k om p mq mu)
  have z4 := e2 (fun mq => gluon.thermal.polarization_quark_t_thermal_part_zero_temp_landau ig k om p mq mu)
  have a1 : qcd.thermal.gluon.dressing_l_inv_landau_w_field_config ig k om p beta mu f0 (FieldConfig.new nc m qs) =
      ym.thermal.gluon.dressing_l_inv_landau ig k om p m beta f0 := by
    simp only [qcd.thermal.gluon.dressing_l_inv_landau_w_field_config, ym.thermal.gluon.dressing_l_inv_landau, e3, conf_nf0 k _ f0 nc m qs h, z1, add_zero]
    simp only [toC_complex, toC_real, map_add, map_mul, map_inv₀, map_div₀, toC_ofR, ofR_mul, ofR_real, ofR_complex, Complex.ofReal_mul, Complex.ofReal_natCast]
  have a2 : qcd.thermal.gluon.dressing_t_inv_landau_w_field_config ig k om p beta mu f0 (FieldConfig.new nc m qs) =
      ym.thermal.gluon.dressing_t_inv_landau ig k om p m beta f0 := by
    simp only [qcd.thermal.gluon.dressing_t_inv_landau_w_field_config, ym.thermal.gluon.dressing_t_inv_landau, ym.thermal.gluon.dressing_l_inv_landau, e3, conf_nf0 k _ f0 nc m qs h, z2, add_zero]
    skip
  have a3 : qcd.thermal.gluon.dressing_l_inv_zero_temp_landau_w_field_config ig k om p mu f0 (FieldConfig.new nc m qs) =
      (toC (ym.gluon.dressing_inv_landau ((om * om + ofR (p * p)) / ofR (m * m)) f0)) := by
    simp only [qcd.thermal.gluon.dressing_l_inv_zero_temp_landau_w_field_config, e3, conf_nf0 k _ f0 nc m qs h, z3, mul_zero, zero_div, sub_zero]
    simp only [toC_complex, toC_real, map_add, map_mul, map_inv₀, map_div₀, toC_ofR, ofR_mul, ofR_real, ofR_complex, Complex.ofReal_mul, Complex.ofReal_natCast]
  have a4 : qcd.thermal.gluon.dressing_t_inv_zero_temp_landau_w_field_config ig k om p mu f0 (FieldConfig.new nc m qs) =
      (toC (ym.gluon.dressing_inv_landau ((om * om + ofR (p * p)) / ofR (m * m)) f0)) := by
    simp only [qcd.thermal.gluon.dressing_t_inv_zero_temp_landau_w_field_config, e3, conf_nf0 k _ f0 nc m qs h, z4, mul_zero, zero_div, sub_zero]
    skip
  constructor
  · simp only [qcd.thermal.gluon.configValues, ym.thermal.gluon.values, qcd.thermal.gluon.dressing_l_landau_w_field_config, qcd.thermal.gluon.dressing_t_landau_w_field_config, qcd.thermal.gluon.propagator_l_landau_w_field_config, qcd.thermal.gluon.propagator_t_landau_w_field_config, ym.thermal.gluon.dressing_l_landau, ym.thermal.gluon.dressing_t_landau, ym.thermal.gluon.propagator_l_landau, ym.thermal.gluon.propagator_t_landau, a1, a2, toC_complex, toC_real, map_add, map_mul, map_inv₀, map_div₀, toC_ofR, ofR_mul, ofR_real, ofR_complex, Complex.ofReal_mul, Complex.ofReal_natCast]
    skip
  · simp only [qcd.thermal.gluon.configZeroTempValues, vacuumValues, qcd.thermal.gluon.dressing_l_zero_temp_landau_w_field_config, qcd.thermal.gluon.dressing_t_zero_temp_landau_w_field_config, qcd.thermal.gluon.propagator_l_zero_temp_landau_w_field_config, qcd.thermal.gluon.propagator_t_zero_temp_landau_w_field_config, a3, a4, div_eq_inv_mul, one_div, map_inv₀, ofR_one, mul_one, ofR_complex, Complex.ofReal_one, toC_complex, toC_real, map_add, map_mul, map_inv₀, map_div₀, toC_ofR, ofR_mul, ofR_real, ofR_complex, Complex.ofReal_mul, Complex.ofReal_natCast]
    skip

/-- **C44** (zero temperature, configuration of quarks heavier than `|mu|`, complex frequency): the vacuum QCD values. -/
theorem C44_zero_density_config_general_complex (ig : Integrator) (k : Consts ℝ) (om : ℂ) (p : ℝ) (mu f0 : ℝ) (nc : ℕ) (m : ℝ)
    (qs : List (ℕ × ℝ)) (h : ∀ q ∈ qs, |mu| < |q.2|) :
    qcd.thermal.gluon.configZeroTempValues ig k om p mu f0 (FieldConfig.new nc m qs) =
      vacuumValues (toC (om * om + ofR (p * p))) (toC (qcd.gluon.dressing_inv_landau_w_field_config k ((om * om + ofR (p * p)) / ofR (m * m)) f0 (FieldConfig.new nc m qs))) := by
  have e2 := fun (A : ℝ → ℂ) => sum_zero A (fun n => (ofR (n : ℝ) : ℂ)) nc m qs
  have z3 := e2 (fun mq => gluon.thermal.polarization_quark_l_thermal_part_zero_temp_landau ig k om p mq mu)
    (fun q hq => by simp only [gluon.thermal.polarization_quark_l_thermal_part_zero_temp_landau, gluon.thermal.polarization_quark_t_thermal_part_zero_temp_landau, gluon.thermal.polarization_quark_l_thermal_part_zero_temp_landau_w_method, gluon.thermal.polarization_quark_t_thermal_part_zero_temp_landau_w_method, if_pos (h q hq)])
  have z4 := e2 (fun mq => gluon.thermal.polarization_quark_t_thermal_part_zero_temp_landau ig k om p mq mu)
    (fun q hq => by simp only [gluon.thermal.polarization_quark_l_thermal_part_zero_temp_landau, gluon.thermal.polarization_quark_t_thermal_part_zero_temp_landau, gluon.thermal.polarization_quark_l_thermal_part_zero_temp_landau_w_method, gluon.thermal.polarization_quark_t_thermal_part_zero_temp_landau_w_method, if_pos (h q hq)])
  have e3 : (FieldConfig.new nc m qs).gluon = m := rfl
  have a3 : qcd.thermal.gluon.dressing_l_inv_zero_temp_landau_w_field_config ig k om p mu f0 (FieldConfig.new nc m qs) =
      (toC (qcd.gluon.dressing_inv_landau_w_field_config k ((om * om + ofR (p * p)) / ofR (m * m)) f0 (FieldConfig.new nc m qs))) := by
    simp only [qcd.thermal.gluon.dressing_l_inv_zero_temp_landau_w_field_config, e3, z3, mul_zero, zero_div, sub_zero]
    simp only [toC_complex, toC_real, map_add, map_mul, map_inv₀, map_div₀, toC_ofR, ofR_mul, ofR_real, ofR_complex, Complex.ofReal_mul, Complex.ofReal_natCast]
  have a4 : qcd.thermal.gluon.dressing_t_inv_zero_temp_landau_w_field_config ig k om p mu f0 (FieldConfig.new nc m qs) =
      (toC (qcd.gluon.dressing_inv_landau_w_field_config k ((om * om + ofR (p * p)) / ofR (m * m)) f0 (FieldConfig.new nc m qs))) := by
    simp only [qcd.thermal.gluon.dressing_t_inv_zero_temp_landau_w_field_config, e3, z4, mul_zero, zero_div, sub_zero]
    skip
  simp only [qcd.thermal.gluon.configZeroTempValues, vacuumValues, qcd.thermal.gluon.dressing_l_zero_temp_landau_w_field_config, qcd.thermal.gluon.dressing_t_zero_temp_landau_w_field_config, qcd.thermal.gluon.propagator_l_zero_temp_landau_w_field_config, qcd.thermal.gluon.propagator_t_zero_temp_landau_w_field_config, a3, a4, div_eq_inv_mul, one_div, map_inv₀, ofR_one, mul_one, ofR_complex, Complex.ofReal_one, toC_complex, toC_real, map_add, map_mul, map_inv₀, map_div₀, toC_ofR, ofR_mul, ofR_real, ofR_complex, Complex.ofReal_mul, Complex.ofReal_natCast]
  skip

/-- **C44** (interfaces, complex frequency): after any history of setter calls the single-mass functions agree with the
field-configuration functions for one flavour group with the current numbers of colours and fermions. -/
theorem C44_interfaces_general_complex (ig : Integrator) (hist : List (consts.Setter ℝ)) (om : ℂ) (p : ℝ) (m mq beta mu f0 : ℝ)
    :
    let k := consts.after hist
    qcd.thermal.gluon.configValues ig k om p beta mu f0 (FieldConfig.new k.nc m [(k.nf, mq)]) =
      qcd.thermal.gluon.values ig k om p m mq beta mu f0 ∧
    qcd.thermal.gluon.configZeroTempValues ig k om p mu f0 (FieldConfig.new k.nc m [(k.nf, mq)]) =
      qcd.thermal.gluon.zeroTempValues ig k om p m mq mu f0 := by
  intro k
  have e2 := fun A : ℝ → ℂ => sum_single A (fun n => (ofR (n : ℝ) : ℂ)) k.nc k.nf m mq
  have e1 : ∀ s : ℂ, qcd.gluon.dressing_inv_landau_w_field_config k s f0 (FieldConfig.new k.nc m [(k.nf, mq)])
      = qcd.gluon.dressing_inv_landau k s (mq / m) f0 := fun s => conf_single hist s m mq f0
  have e3 : (FieldConfig.new k.nc m [(k.nf, mq)]).gluon = m := rfl
  have z1 := e2 (fun mq => gluon.thermal.polarization_quark_l_thermal_part_landau ig k om p mq beta mu)
  have z2 := e2 (fun mq => gluon.thermal.polarization_quark_t_thermal_part_landau ig k om p mq beta mu)
  have z3 := e2 (fun mq => gluon.thermal.polarization_quark_l_thermal_part_zero_temp_landau ig k om p mq mu)
  have z4 := e2 (fun mq => gluon.thermal.polarization_quark_t_thermal_part_zero_temp_landau ig k om p mq mu)
  have a1 : qcd.thermal.gluon.dressing_l_inv_landau_w_field_config ig k om p beta mu f0 (FieldConfig.new k.nc m [(k.nf, mq)]) =
      qcd.thermal.gluon.dressing_l_inv_landau ig k om p m mq beta mu f0 := by
    simp only [qcd.thermal.gluon.dressing_l_inv_landau_w_field_config, qcd.thermal.gluon.dressing_l_inv_landau, e3, z1, e1]
    simp only [toC_complex, toC_real, map_add, map_mul, map_inv₀, map_div₀, toC_ofR, ofR_mul, ofR_real, ofR_complex, Complex.ofReal_mul, Complex.ofReal_natCast]
    ring
  have a2 : qcd.thermal.gluon.dressing_t_inv_landau_w_field_config ig k om p beta mu f0 (FieldConfig.new k.nc m [(k.nf, mq)]) =
      qcd.thermal.gluon.dressing_t_inv_landau ig k om p m mq beta mu f0 := by
    simp only [qcd.thermal.gluon.dressing_t_inv_landau_w_field_config, qcd.thermal.gluon.dressing_t_inv_landau, e3, e1, z2]
    simp only [toC_complex, toC_real, map_add, map_mul, map_inv₀, map_div₀, toC_ofR, ofR_mul, ofR_real, ofR_complex, Complex.ofReal_mul, Complex.ofReal_natCast]
    ring
  have a3 : qcd.thermal.gluon.dressing_l_inv_zero_temp_landau_w_field_config ig k om p mu f0 (FieldConfig.new k.nc m [(k.nf, mq)]) =
      qcd.thermal.gluon.dressing_l_inv_zero_temp_landau ig k om p m mq mu f0 := by
    simp only [qcd.thermal.gluon.dressing_l_inv_zero_temp_landau_w_field_config, qcd.thermal.gluon.dressing_l_inv_zero_temp_landau, e3, z3, e1]
    simp only [toC_complex, toC_real, map_add, map_mul, map_inv₀, map_div₀, toC_ofR, ofR_mul, ofR_real, ofR_complex, Complex.ofReal_mul, Complex.ofReal_natCast]
    ring
  have a4 : qcd.thermal.gluon.dressing_t_inv_zero_temp_landau_w_field_config ig k om p mu f0 (FieldConfig.new k.nc m [(k.nf, mq)]) =
      qcd.thermal.gluon.dressing_t_inv_zero_temp_landau ig k om p m mq mu f0 := by
    simp only [qcd.thermal.gluon.dressing_t_inv_zero_temp_landau_w_field_config, qcd.thermal.gluon.dressing_t_inv_zero_temp_landau, e3, e1, z4]
    simp only [toC_complex, toC_real, map_add, map_mul, map_inv₀, map_div₀, toC_ofR, ofR_mul, ofR_real, ofR_complex, Complex.ofReal_mul, Complex.ofReal_natCast]
    ring
  constructor
  · simp only [qcd.thermal.gluon.configValues, qcd.thermal.gluon.values, qcd.thermal.gluon.dressing_l_landau_w_field_config, qcd.thermal.gluon.dressing_t_landau_w_field_config, qcd.thermal.gluon.propagator_l_landau_w_field_config, qcd.thermal.gluon.propagator_t_landau_w_field_config, qcd.thermal.gluon.dressing_l_landau, qcd.thermal.gluon.dressing_t_landau, qcd.thermal.gluon.propagator_l_landau, qcd.thermal.gluon.propagator_t_landau, a1, a2, toC_complex, toC_real, map_add, map_mul, map_inv₀, map_div₀, toC_ofR, ofR_mul, ofR_real, ofR_complex, Complex.ofReal_mul, Complex.ofReal_natCast]
    skip
  · simp only [qcd.thermal.gluon.configZeroTempValues, qcd.thermal.gluon.zeroTempValues, qcd.thermal.gluon.dressing_l_zero_temp_landau_w_field_config, qcd.thermal.gluon.dressing_t_zero_temp_landau_w_field_config, qcd.thermal.gluon.propagator_l_zero_temp_landau_w_field_config, qcd.thermal.gluon.propagator_t_zero_temp_landau_w_field_config, qcd.thermal.gluon.dressing_l_zero_temp_landau, qcd.thermal.gluon.dressing_t_zero_temp_landau, qcd.thermal.gluon.propagator_l_zero_temp_landau, qcd.thermal.gluon.propagator_t_zero_temp_landau, a3, a4, toC_complex, toC_real, map_add, map_mul, map_inv₀, map_div₀, toC_ofR, ofR_mul, ofR_real, ofR_complex, Complex.ofReal_mul, Complex.ofReal_natCast]
    skip

/-- **C44** (configuration without quarks, real frequency): every entry of the list has multiplicity 0, in particular the
empty list. -/
theorem C44_no_quarks_general_real (ig : Integrator) (k : Consts ℝ) (om : ℝ) (p : ℝ) (beta mu f0 : ℝ) (nc : ℕ) (m : ℝ)
    (qs : List (ℕ × ℝ)) (h : ∀ q ∈ qs, q.1 = 0) (hm : m ≠ 0) (hpos : 0 < om * om + p * p) :
    qcd.thermal.gluon.configValues ig k om p beta mu f0 (FieldConfig.new nc m qs) = ym.thermal.gluon.values ig k om p m beta f0 ∧
    qcd.thermal.gluon.configZeroTempValues ig k om p mu f0 (FieldConfig.new nc m qs) =
      vacuumValues (toC (om * om + ofR (p * p))) (toC (ym.gluon.dressing_inv_landau ((om * om + ofR (p * p)) / ofR (m * m)) f0)) := by
  have e2 := fun A : ℝ → ℂ => sum_nf0 A (fun n => (ofR (n : ℝ) : ℂ)) (by simp) nc m qs h
  have e3 : (FieldConfig.new nc m qs).gluon = m := rfl
  have z1 := e2 (fun mq => gluon.thermal.polarization_quark_l_thermal_part_landau ig k om p mq beta mu)
  have z2 := e2 (fun mq => gluon.thermal.polarization_quark_t_thermal_part_landau ig k om p mq beta mu)
  have z3 := e2 (fun mq => gluon.thermal.polarization_quark_l_thermal_part_zero_temp_landau ig k om p mq mu)
  have z4 := e2 (fun mq => gluon.thermal.polarization_quark_t_thermal_part_zero_temp_landau ig k om p mq mu)
  have hs : 0 < (om * om + p * p) / (m * m) :=
    div_pos hpos (mul_self_pos.2 hm)
  have hc : ((toC (om * om) + toC (p * p)) / (ofR (m * m) : ℂ)) = (((om * om + p * p) / (m * m) : ℝ) : ℂ) := by
    simp
  have r1 := ym_ofReal _ hs f0
  rw [← hc] at r1
  have a1 : qcd.thermal.gluon.dressing_l_inv_landau_w_field_config ig k om p beta mu f0 (FieldConfig.new nc m qs) =
      ym.thermal.gluon.dressing_l_inv_landau ig k om p m beta f0 := by
    simp only [qcd.thermal.gluon.dressing_l_inv_landau_w_field_config, ym.thermal.gluon.dressing_l_inv_landau, e3, conf_nf0 k _ f0 nc m qs h, z1, add_zero, r1]
    simp only [ofR_real, ofR_complex, toC_complex, toC_real, map_add, map_mul, map_inv₀]
  have a2 : qcd.thermal.gluon.dressing_t_inv_landau_w_field_config ig k om p beta mu f0 (FieldConfig.new nc m qs) =
      ym.thermal.gluon.dressing_t_inv_landau ig k om p m beta f0 := by
    simp only [qcd.thermal.gluon.dressing_t_inv_landau_w_field_config, ym.thermal.gluon.dressing_t_inv_landau, ym.thermal.gluon.dressing_l_inv_landau, e3, conf_nf0 k _ f0 nc m qs h, z2, add_zero]
    skip
  have a3 : qcd.thermal.gluon.dressing_l_inv_zero_temp_landau_w_field_config ig k om p mu f0 (FieldConfig.new nc m qs) =
      (toC (ym.gluon.dressing_inv_landau ((om * om + ofR (p * p)) / ofR (m * m)) f0)) := by
    simp only [qcd.thermal.gluon.dressing_l_inv_zero_temp_landau_w_field_config, e3, conf_nf0 k _ f0 nc m qs h, z3, mul_zero, zero_div, sub_zero, r1]
    simp only [ofR_real, ofR_complex, toC_complex, toC_real, map_add, map_mul, map_inv₀]
  have a4 : qcd.thermal.gluon.dressing_t_inv_zero_temp_landau_w_field_config ig k om p mu f0 (FieldConfig.new nc m qs) =
      (toC (ym.gluon.dressing_inv_landau ((om * om + ofR (p * p)) / ofR (m * m)) f0)) := by
    simp only [qcd.thermal.gluon.dressing_t_inv_zero_temp_landau_w_field_config, e3, conf_nf0 k _ f0 nc m qs h, z4, mul_zero, zero_div, sub_zero]
    skip
  constructor
  · simp only [qcd.thermal.gluon.configValues, ym.thermal.gluon.values, qcd.thermal.gluon.dressing_l_landau_w_field_config, qcd.thermal.gluon.dressing_t_landau_w_field_config, qcd.thermal.gluon.propagator_l_landau_w_field_config, qcd.thermal.gluon.propagator_t_landau_w_field_config, ym.thermal.gluon.dressing_l_landau, ym.thermal.gluon.dressing_t_landau, ym.thermal.gluon.propagator_l_landau, ym.thermal.gluon.propagator_t_landau, a1, a2, toC_complex, toC_real, map_add, map_mul, map_inv₀, map_div₀, toC_ofR, ofR_mul, ofR_real, ofR_complex, Complex.ofReal_mul, Complex.ofReal_natCast]
    skip
  · simp only [qcd.thermal.gluon.configZeroTempValues, vacuumValues, qcd.thermal.gluon.dressing_l_zero_temp_landau_w_field_config, qcd.thermal.gluon.dressing_t_zero_temp_landau_w_field_config, qcd.thermal.gluon.propagator_l_zero_temp_landau_w_field_config, qcd.thermal.gluon.propagator_t_zero_temp_landau_w_field_config, a3, a4, div_eq_inv_mul, one_div, map_inv₀, ofR_one, mul_one, ofR_complex, Complex.ofReal_one, toC_complex, toC_real, map_add, map_mul, map_inv₀, map_div₀, toC_ofR, ofR_mul, ofR_real, ofR_complex, Complex.ofReal_mul, Complex.ofReal_natCast]
    skip

/-- **C44** (zero temperature, configuration of quarks heavier than `|mu|`, real frequency): the vacuum QCD values. -/
theorem C44_zero_density_config_general_real (ig : Integrator) (k : Consts ℝ) (om : ℝ) (p : ℝ) (mu f0 : ℝ) (nc : ℕ) (m : ℝ)
    (qs : List (ℕ × ℝ)) (h : ∀ q ∈ qs, |mu| < |q.2|) (hm : m ≠ 0) (hpos : 0 < om * om + p * p) :
    qcd.thermal.gluon.configZeroTempValues ig k om p mu f0 (FieldConfig.new nc m qs) =
      vacuumValues (toC (om * om + ofR (p * p))) (toC (qcd.gluon.dressing_inv_landau_w_field_config k ((om * om + ofR (p * p)) / ofR (m * m)) f0 (FieldConfig.new nc m qs))) := by
  have e2 := fun (A : ℝ → ℂ) => sum_zero A (fun n => (ofR (n : ℝ) : ℂ)) nc m qs
  have z3 := e2 (fun mq => gluon.thermal.polarization_quark_l_thermal_part_zero_temp_landau ig k om p mq mu)
    (fun q hq => by simp only [gluon.thermal.polarization_quark_l_thermal_part_zero_temp_landau, gluon.thermal.polarization_quark_t_thermal_part_zero_temp_landau, gluon.thermal.polarization_quark_l_thermal_part_zero_temp_landau_w_method, gluon.thermal.polarization_quark_t_thermal_part_zero_temp_landau_w_method, if_pos (h q hq)])
  have z4 := e2 (fun mq => gluon.thermal.polarization_quark_t_thermal_part_zero_temp_landau ig k om p mq mu)
    (fun q hq => by simp only [gluon.thermal.polarization_quark_l_thermal_part_zero_temp_landau, gluon.thermal.polarization_quark_t_thermal_part_zero_temp_landau, gluon.thermal.polarization_quark_l_thermal_part_zero_temp_landau_w_method, gluon.thermal.polarization_quark_t_thermal_part_zero_temp_landau_w_method, if_pos (h q hq)])
  have e3 : (FieldConfig.new nc m qs).gluon = m := rfl
  have hs : 0 < (om * om + p * p) / (m * m) :=
    div_pos hpos (mul_self_pos.2 hm)
  have hc : ((toC (om * om) + toC (p * p)) / (ofR (m * m) : ℂ)) = (((om * om + p * p) / (m * m) : ℝ) : ℂ) := by
    simp
  have r1 := conf_ofReal k _ hs f0 nc m qs hm (fun q hq h0 => by
    have := h q hq
    rw [h0, abs_zero] at this
    exact absurd this (not_lt.2 (abs_nonneg mu)))
  rw [← hc] at r1
  have a3 : qcd.thermal.gluon.dressing_l_inv_zero_temp_landau_w_field_config ig k om p mu f0 (FieldConfig.new nc m qs) =
      (toC (qcd.gluon.dressing_inv_landau_w_field_config k ((om * om + ofR (p * p)) / ofR (m * m)) f0 (FieldConfig.new nc m qs))) := by
    simp only [qcd.thermal.gluon.dressing_l_inv_zero_temp_landau_w_field_config, e3, z3, mul_zero, zero_div, sub_zero, r1]
    simp only [ofR_real, ofR_complex, toC_complex, toC_real, map_add, map_mul, map_inv₀]
  have a4 : qcd.thermal.gluon.dressing_t_inv_zero_temp_landau_w_field_config ig k om p mu f0 (FieldConfig.new nc m qs) =
      (toC (qcd.gluon.dressing_inv_landau_w_field_config k ((om * om + ofR (p * p)) / ofR (m * m)) f0 (FieldConfig.new nc m qs))) := by
    simp only [qcd.thermal.gluon.dressing_t_inv_zero_temp_landau_w_field_config, e3, z4, mul_zero, zero_div, sub_zero]
    skip
  simp only [qcd.thermal.gluon.configZeroTempValues, vacuumValues, qcd.thermal.gluon.dressing_l_zero_temp_landau_w_field_config, qcd.thermal.gluon.dressing_t_zero_temp_landau_w_field_config, qcd.thermal.gluon.propagator_l_zero_temp_landau_w_field_config, qcd.thermal.gluon.propagator_t_zero_temp_landau_w_field_config, a3, a4, div_eq_inv_mul, one_div, map_inv₀, ofR_one, mul_one, ofR_complex, Complex.ofReal_one, toC_complex, toC_real, map_add, map_mul, map_inv₀, map_div₀, toC_ofR, ofR_mul, ofR_real, ofR_complex, Complex.ofReal_mul, Complex.ofReal_natCast]
  skip

/-- **C44** (interfaces, real frequency): after any history of setter calls the single-mass functions agree with the
field-configuration functions for one flavour group with the current numbers of colours and fermions. -/
theorem C44_interfaces_general_real (ig : Integrator) (hist : List (consts.Setter ℝ)) (om : ℝ) (p : ℝ) (m mq beta mu f0 : ℝ)
    (hq : mq ≠ 0) (hm : m ≠ 0) (hpos : 0 < om * om + p * p) :
    let k := consts.after hist
    qcd.thermal.gluon.configValues ig k om p beta mu f0 (FieldConfig.new k.nc m [(k.nf, mq)]) =
      qcd.thermal.gluon.values ig k om p m mq beta mu f0 ∧
    qcd.thermal.gluon.configZeroTempValues ig k om p mu f0 (FieldConfig.new k.nc m [(k.nf, mq)]) =
      qcd.thermal.gluon.zeroTempValues ig k om p m mq mu f0 := by
  intro k
  have e2 := fun A : ℝ → ℂ => sum_single A (fun n => (ofR (n : ℝ) : ℂ)) k.nc k.nf m mq
  have e1 : ∀ s : ℝ, qcd.gluon.dressing_inv_landau_w_field_config k s f0 (FieldConfig.new k.nc m [(k.nf, mq)])
      = qcd.gluon.dressing_inv_landau k s (mq / m) f0 := fun s => conf_single hist s m mq f0
  have e3 : (FieldConfig.new k.nc m [(k.nf, mq)]).gluon = m := rfl
  have z1 := e2 (fun mq => gluon.thermal.polarization_quark_l_thermal_part_landau ig k om p mq beta mu)
  have z2 := e2 (fun mq => gluon.thermal.polarization_quark_t_thermal_part_landau ig k om p mq beta mu)
  have z3 := e2 (fun mq => gluon.thermal.polarization_quark_l_thermal_part_zero_temp_landau ig k om p mq mu)
  have z4 := e2 (fun mq => gluon.thermal.polarization_quark_t_thermal_part_zero_temp_landau ig k om p mq mu)
  have hs : 0 < (om * om + p * p) / (m * m) :=
    div_pos hpos (mul_self_pos.2 hm)
  have hc : ((toC (om * om) + toC (p * p)) / (ofR (m * m) : ℂ)) = (((om * om + p * p) / (m * m) : ℝ) : ℂ) := by
    simp
  have r1 := conf_ofReal k _ hs f0 k.nc m [(k.nf, mq)] hm (by simpa using hq)
  rw [← hc, e1] at r1
  have a1 : qcd.thermal.gluon.dressing_l_inv_landau_w_field_config ig k om p beta mu f0 (FieldConfig.new k.nc m [(k.nf, mq)]) =
      qcd.thermal.gluon.dressing_l_inv_landau ig k om p m mq beta mu f0 := by
    simp only [qcd.thermal.gluon.dressing_l_inv_landau_w_field_config, qcd.thermal.gluon.dressing_l_inv_landau, e3, z1, r1]
    simp only [toC_complex, toC_real, map_add, map_mul, map_inv₀, map_div₀, toC_ofR, ofR_mul, ofR_real, ofR_complex, Complex.ofReal_mul, Complex.ofReal_natCast]
    ring
  have a2 : qcd.thermal.gluon.dressing_t_inv_landau_w_field_config ig k om p beta mu f0 (FieldConfig.new k.nc m [(k.nf, mq)]) =
      qcd.thermal.gluon.dressing_t_inv_landau ig k om p m mq beta mu f0 := by
    simp only [qcd.thermal.gluon.dressing_t_inv_landau_w_field_config, qcd.thermal.gluon.dressing_t_inv_landau, e3, e1, z2]
    simp only [toC_complex, toC_real, map_add, map_mul, map_inv₀, map_div₀, toC_ofR, ofR_mul, ofR_real, ofR_complex, Complex.ofReal_mul, Complex.ofReal_natCast]
    ring
  have a3 : qcd.thermal.gluon.dressing_l_inv_zero_temp_landau_w_field_config ig k om p mu f0 (FieldConfig.new k.nc m [(k.nf, mq)]) =
      qcd.thermal.gluon.dressing_l_inv_zero_temp_landau ig k om p m mq mu f0 := by
    simp only [qcd.thermal.gluon.dressing_l_inv_zero_temp_landau_w_field_config, qcd.thermal.gluon.dressing_l_inv_zero_temp_landau, e3, z3, r1]
    simp only [toC_complex, toC_real, map_add, map_mul, map_inv₀, map_div₀, toC_ofR, ofR_mul, ofR_real, ofR_complex, Complex.ofReal_mul, Complex.ofReal_natCast]
    ring
  have a4 : qcd.thermal.gluon.dressing_t_inv_zero_temp_landau_w_field_config ig k om p mu f0 (FieldConfig.new k.nc m [(k.nf, mq)]) =
      qcd.thermal.gluon.dressing_t_inv_zero_temp_landau ig k om p m mq mu f0 := by
    simp only [qcd.thermal.gluon.dressing_t_inv_zero_temp_landau_w_field_config, qcd.thermal.gluon.dressing_t_inv_zero_temp_landau, e3, e1, z4]
    simp only [toC_complex, toC_real, map_add, map_mul, map_inv₀, map_div₀, toC_ofR, ofR_mul, ofR_real, ofR_complex, Complex.ofReal_mul, Complex.ofReal_natCast]
    ring
  constructor
  · simp only [qcd.thermal.gluon.configValues, qcd.thermal.gluon.values, qcd.thermal.gluon.dressing_l_landau_w_field_config, qcd.thermal.gluon.dressing_t_landau_w_field_config, qcd.thermal.gluon.propagator_l_landau_w_field_config, qcd.thermal.gluon.propagator_t_landau_w_field_config, qcd.thermal.gluon.dressing_l_landau, qcd.thermal.gluon.dressing_t_landau, qcd.thermal.gluon.propagator_l_landau, qcd.thermal.gluon.propagator_t_landau, a1, a2, toC_complex, toC_real, map_add, map_mul, map_inv₀, map_div₀, toC_ofR, ofR_mul, ofR_real, ofR_complex, Complex.ofReal_mul, Complex.ofReal_natCast]
    skip
  · simp only [qcd.thermal.gluon.configZeroTempValues, qcd.thermal.gluon.zeroTempValues, qcd.thermal.gluon.dressing_l_zero_temp_landau_w_field_config, qcd.thermal.gluon.dressing_t_zero_temp_landau_w_field_config, qcd.thermal.gluon.propagator_l_zero_temp_landau_w_field_config, qcd.thermal.gluon.propagator_t_zero_temp_landau_w_field_config, qcd.thermal.gluon.dressing_l_zero_temp_landau, qcd.thermal.gluon.dressing_t_zero_temp_landau, qcd.thermal.gluon.propagator_l_zero_temp_landau, qcd.thermal.gluon.propagator_t_zero_temp_landau, a3, a4, toC_complex, toC_real, map_add, map_mul, map_inv₀, map_div₀, toC_ofR, ofR_mul, ofR_real, ofR_complex, Complex.ofReal_mul, Complex.ofReal_natCast]
    skip

/-! ### qcd::thermal::zero_matsubara::gluon -/

/-- **C44** (`qcd::thermal::zero_matsubara::gluon`): with no fermions, after any history of setter calls, the six functions are
those of Yang-Mills theory, for every integrator. -/
theorem C44_no_fermions_zero_matsubara (ig : Integrator) (h : List (consts.Setter ℝ)) (hnf : (consts.after h).nf = 0)
    (p : ℝ) (m mq beta mu f0 : ℝ) :
    qcd.thermal.zero_matsubara.gluon.values ig (consts.after h) p m mq beta mu f0 = ym.thermal.zero_matsubara.gluon.values ig (consts.after h) p m beta f0 := by
  simp only [qcd.thermal.zero_matsubara.gluon.values, ym.thermal.zero_matsubara.gluon.values, qcd.thermal.zero_matsubara.gluon.dressing_l_inv_landau, qcd.thermal.zero_matsubara.gluon.dressing_t_inv_landau, qcd.thermal.zero_matsubara.gluon.dressing_l_landau, qcd.thermal.zero_matsubara.gluon.dressing_t_landau, qcd.thermal.zero_matsubara.gluon.propagator_l_landau, qcd.thermal.zero_matsubara.gluon.propagator_t_landau, ym.thermal.zero_matsubara.gluon.dressing_l_inv_landau, ym.thermal.zero_matsubara.gluon.dressing_t_inv_landau, ym.thermal.zero_matsubara.gluon.dressing_l_landau, ym.thermal.zero_matsubara.gluon.dressing_t_landau, ym.thermal.zero_matsubara.gluon.propagator_l_landau, ym.thermal.zero_matsubara.gluon.propagator_t_landau,
    glob_nf0 h hnf, hnf, one_mul, Nat.cast_zero, ofR_zero, zero_mul, mul_zero, add_zero, zero_add, sub_zero, zero_div, one_div, ofR_complex, Complex.ofReal_zero, Complex.ofReal_one]

/-- **C44** (zero temperature, no fermions): the vacuum Yang-Mills values. -/
theorem C44_no_fermions_zero_temp_zero_matsubara (ig : Integrator) (h : List (consts.Setter ℝ))
    (hnf : (consts.after h).nf = 0) (p : ℝ) (m mq mu f0 : ℝ) :
    qcd.thermal.zero_matsubara.gluon.zeroTempValues ig (consts.after h) p m mq mu f0 =
      vacuumValues (p * p) (ym.gluon.dressing_inv_landau ((p * p) / (m * m)) f0) := by
  simp only [qcd.thermal.zero_matsubara.gluon.zeroTempValues, vacuumValues, qcd.thermal.zero_matsubara.gluon.dressing_l_inv_zero_temp_landau, qcd.thermal.zero_matsubara.gluon.dressing_t_inv_zero_temp_landau, qcd.thermal.zero_matsubara.gluon.dressing_l_zero_temp_landau, qcd.thermal.zero_matsubara.gluon.dressing_t_zero_temp_landau, qcd.thermal.zero_matsubara.gluon.propagator_l_zero_temp_landau, qcd.thermal.zero_matsubara.gluon.propagator_t_zero_temp_landau,
    glob_nf0 h hnf, hnf, one_mul, Nat.cast_zero, ofR_zero, zero_mul, mul_zero, add_zero, zero_add, sub_zero, zero_div, one_div, ofR_complex, Complex.ofReal_zero, Complex.ofReal_one, map_zero, map_inv₀, div_eq_inv_mul, div_eq_mul_inv, mul_comm]

/-- **C44** (zero temperature, `|mu| < |mq|`): the vacuum QCD values, for every integrator. -/
theorem C44_zero_density_zero_matsubara (ig : Integrator) (k : Consts ℝ) (p : ℝ) (m mq mu f0 : ℝ) (hmu : |mu| < |mq|) :
    qcd.thermal.zero_matsubara.gluon.zeroTempValues ig k p m mq mu f0 =
      vacuumValues (p * p) (qcd.gluon.dressing_inv_landau k ((p * p) / (m * m)) (mq / m) f0) := by
  simp only [qcd.thermal.zero_matsubara.gluon.zeroTempValues, vacuumValues, qcd.thermal.zero_matsubara.gluon.dressing_l_inv_zero_temp_landau, qcd.thermal.zero_matsubara.gluon.dressing_t_inv_zero_temp_landau, qcd.thermal.zero_matsubara.gluon.dressing_l_zero_temp_landau, qcd.thermal.zero_matsubara.gluon.dressing_t_zero_temp_landau, qcd.thermal.zero_matsubara.gluon.propagator_l_zero_temp_landau, qcd.thermal.zero_matsubara.gluon.propagator_t_zero_temp_landau,
    gluon.thermal.zero_matsubara.polarization_quark_l_thermal_part_zero_temp_landau, gluon.thermal.zero_matsubara.polarization_quark_t_thermal_part_zero_temp_landau, gluon.thermal.zero_matsubara.polarization_quark_l_thermal_part_zero_temp_landau_w_method, gluon.thermal.zero_matsubara.polarization_quark_t_thermal_part_zero_temp_landau_w_method, if_pos hmu, one_mul, Nat.cast_zero, ofR_zero, zero_mul, mul_zero, add_zero, zero_add, sub_zero, zero_div, one_div, ofR_complex, Complex.ofReal_zero, Complex.ofReal_one, map_inv₀, div_eq_inv_mul, div_eq_mul_inv, mul_comm]

/-- **C44** (configuration without quarks): every entry of the list has multiplicity 0, in particular the
empty list. -/
theorem C44_no_quarks_zero_matsubara (ig : Integrator) (k : Consts ℝ) (p : ℝ) (beta mu f0 : ℝ) (nc : ℕ) (m : ℝ)
    (qs : List (ℕ × ℝ)) (h : ∀ q ∈ qs, q.1 = 0) :
    qcd.thermal.zero_matsubara.gluon.configValues ig k p beta mu f0 (FieldConfig.new nc m qs) = ym.thermal.zero_matsubara.gluon.values ig k p m beta f0 ∧
    qcd.thermal.zero_matsubara.gluon.configZeroTempValues ig k p mu f0 (FieldConfig.new nc m qs) =
      vacuumValues (p * p) (ym.gluon.dressing_inv_landau ((p * p) / (m * m)) f0) := by
  have e2 := fun A : ℝ → ℝ => sum_nf0 A (fun n => (n : ℝ)) (by simp) nc m qs h
  have e3 : (FieldConfig.new nc m qs).gluon = m := rfl
  have z1 := e2 (fun mq => gluon.thermal.zero_matsubara.polarization_quark_l_thermal_part_landau ig k p mq beta mu)
  have z2 := e2 (fun mq => gluon.thermal.zero_matsubara.polarization_quark_t_thermal_part_landau ig k p mq beta mu)
  have z3 := e2 (fun mq => gluon.thermal.zero_matsubara.polarization_quark_l_thermal_part_zero_temp_landau ig k p mq mu)
  have z4 := e2 (fun mq => gluon.thermal.zero_matsubara.polarization_quark_t_thermal_part_zero_temp_landau ig k p mq mu)
  have a1 : qcd.thermal.zero_matsubara.gluon.dressing_l_inv_landau_w_field_config ig k p beta mu f0 (FieldConfig.new nc m qs) =
      ym.thermal.zero_matsubara.gluon.dressing_l_inv_landau ig k p m beta f0 := by
    simp only [qcd.thermal.zero_matsubara.gluon.dressing_l_inv_landau_w_field_config, ym.thermal.zero_matsubara.gluon.dressing_l_inv_landau, e3, conf_nf0 k _ f0 nc m qs h, z1, add_zero]
    skip
  have a2 : qcd.thermal.zero_matsubara.gluon.dressing_t_inv_landau_w_field_config ig k p beta mu f0 (FieldConfig.new nc m qs) =
      ym.thermal.zero_matsubara.gluon.dressing_t_inv_landau ig k p m beta f0 := by
    simp only [qcd.thermal.zero_matsubara.gluon.dressing_t_inv_landau_w_field_config, ym.thermal.zero_matsubara.gluon.dressing_t_inv_landau, ym.thermal.zero_matsubara.gluon.dressing_l_inv_landau, e3, conf_nf0 k _ f0 nc m qs h, z2, add_zero]
    skip
  have a3 : qcd.thermal.zero_matsubara.gluon.dressing_l_inv_zero_temp_landau_w_field_config ig k p mu f0 (FieldConfig.new nc m qs) =
      (ym.gluon.dressing_inv_landau ((p * p) / (m * m)) f0) := by
    simp only [qcd.thermal.zero_matsubara.gluon.dressing_l_inv_zero_temp_landau_w_field_config, e3, conf_nf0 k _ f0 nc m qs h, z3, mul_zero, zero_div, sub_zero]
    skip
  have a4 : qcd.thermal.zero_matsubara.gluon.dressing_t_inv_zero_temp_landau_w_field_config ig k p mu f0 (FieldConfig.new nc m qs) =
      (ym.gluon.dressing_inv_landau ((p * p) / (m * m)) f0) := by
    simp only [qcd.thermal.zero_matsubara.gluon.dressing_t_inv_zero_temp_landau_w_field_config, e3, conf_nf0 k _ f0 nc m qs h, z4, mul_zero, zero_div, sub_zero]
    skip
  constructor
  · simp only [qcd.thermal.zero_matsubara.gluon.configValues, ym.thermal.zero_matsubara.gluon.values, qcd.thermal.zero_matsubara.gluon.dressing_l_landau_w_field_config, qcd.thermal.zero_matsubara.gluon.dressing_t_landau_w_field_config, qcd.thermal.zero_matsubara.gluon.propagator_l_landau_w_field_config, qcd.thermal.zero_matsubara.gluon.propagator_t_landau_w_field_config, ym.thermal.zero_matsubara.gluon.dressing_l_landau, ym.thermal.zero_matsubara.gluon.dressing_t_landau, ym.thermal.zero_matsubara.gluon.propagator_l_landau, ym.thermal.zero_matsubara.gluon.propagator_t_landau, a1, a2]
    skip
  · simp only [qcd.thermal.zero_matsubara.gluon.configZeroTempValues, vacuumValues, qcd.thermal.zero_matsubara.gluon.dressing_l_zero_temp_landau_w_field_config, qcd.thermal.zero_matsubara.gluon.dressing_t_zero_temp_landau_w_field_config, qcd.thermal.zero_matsubara.gluon.propagator_l_zero_temp_landau_w_field_config, qcd.thermal.zero_matsubara.gluon.propagator_t_zero_temp_landau_w_field_config, a3, a4, div_eq_inv_mul, one_div, map_inv₀, ofR_one, mul_one, ofR_complex, Complex.ofReal_one]
    skip

/-- **C44** (zero temperature, configuration of quarks heavier than `|mu|`): the vacuum QCD values. -/
theorem C44_zero_density_config_zero_matsubara (ig : Integrator) (k : Consts ℝ) (p : ℝ) (mu f0 : ℝ) (nc : ℕ) (m : ℝ)
    (qs : List (ℕ × ℝ)) (h : ∀ q ∈ qs, |mu| < |q.2|) :
    qcd.thermal.zero_matsubara.gluon.configZeroTempValues ig k p mu f0 (FieldConfig.new nc m qs) =
      vacuumValues (p * p) (qcd.gluon.dressing_inv_landau_w_field_config k ((p * p) / (m * m)) f0 (FieldConfig.new nc m qs)) := by
  have e2 := fun (A : ℝ → ℝ) => sum_zero A (fun n => (n : ℝ)) nc m qs
  have z3 := e2 (fun mq => gluon.thermal.zero_matsubara.polarization_quark_l_thermal_part_zero_temp_landau ig k p mq mu)
    (fun q hq => by simp only [gluon.thermal.zero_matsubara.polarization_quark_l_thermal_part_zero_temp_landau, gluon.thermal.zero_matsubara.polarization_quark_t_thermal_part_zero_temp_landau, gluon.thermal.zero_matsubara.polarization_quark_l_thermal_part_zero_temp_landau_w_method, gluon.thermal.zero_matsubara.polarization_quark_t_thermal_part_zero_temp_landau_w_method, if_pos (h q hq)])
  have z4 := e2 (fun mq => gluon.thermal.zero_matsubara.polarization_quark_t_thermal_part_zero_temp_landau ig k p mq mu)
    (fun q hq => by simp only [gluon.thermal.zero_matsubara.polarization_quark_l_thermal_part_zero_temp_landau, gluon.thermal.zero_matsubara.polarization_quark_t_thermal_part_zero_temp_landau, gluon.thermal.zero_matsubara.polarization_quark_l_thermal_part_zero_temp_landau_w_method, gluon.thermal.zero_matsubara.polarization_quark_t_thermal_part_zero_temp_landau_w_method, if_pos (h q hq)])
  have e3 : (FieldConfig.new nc m qs).gluon = m := rfl
  have a3 : qcd.thermal.zero_matsubara.gluon.dressing_l_inv_zero_temp_landau_w_field_config ig k p mu f0 (FieldConfig.new nc m qs) =
      (qcd.gluon.dressing_inv_landau_w_field_config k ((p * p) / (m * m)) f0 (FieldConfig.new nc m qs)) := by
    simp only [qcd.thermal.zero_matsubara.gluon.dressing_l_inv_zero_temp_landau_w_field_config, e3, z3, mul_zero, zero_div, sub_zero]
    skip
  have a4 : qcd.thermal.zero_matsubara.gluon.dressing_t_inv_zero_temp_landau_w_field_config ig k p mu f0 (FieldConfig.new nc m qs) =
      (qcd.gluon.dressing_inv_landau_w_field_config k ((p * p) / (m * m)) f0 (FieldConfig.new nc m qs)) := by
    simp only [qcd.thermal.zero_matsubara.gluon.dressing_t_inv_zero_temp_landau_w_field_config, e3, z4, mul_zero, zero_div, sub_zero]
    skip
  simp only [qcd.thermal.zero_matsubara.gluon.configZeroTempValues, vacuumValues, qcd.thermal.zero_matsubara.gluon.dressing_l_zero_temp_landau_w_field_config, qcd.thermal.zero_matsubara.gluon.dressing_t_zero_temp_landau_w_field_config, qcd.thermal.zero_matsubara.gluon.propagator_l_zero_temp_landau_w_field_config, qcd.thermal.zero_matsubara.gluon.propagator_t_zero_temp_landau_w_field_config, a3, a4, div_eq_inv_mul, one_div, map_inv₀, ofR_one, mul_one, ofR_complex, Complex.ofReal_one]
  skip

/-- **C44** (interfaces): after any history of setter calls the single-mass functions agree with the
field-configuration functions for one flavour group with the current numbers of colours and fermions. -/
theorem C44_interfaces_zero_matsubara (ig : Integrator) (hist : List (consts.Setter ℝ)) (p : ℝ) (m mq beta mu f0 : ℝ)
    :
    let k := consts.after hist
    qcd.thermal.zero_matsubara.gluon.configValues ig k p beta mu f0 (FieldConfig.new k.nc m [(k.nf, mq)]) =
      qcd.thermal.zero_matsubara.gluon.values ig k p m mq beta mu f0 ∧
    qcd.thermal.zero_matsubara.gluon.configZeroTempValues ig k p mu f0 (FieldConfig.new k.nc m [(k.nf, mq)]) =
      qcd.thermal.zero_matsubara.gluon.zeroTempValues ig k p m mq mu f0 := by
  intro k
  have e2 := fun A : ℝ → ℝ => sum_single A (fun n => (n : ℝ)) k.nc k.nf m mq
  have e1 : ∀ s : ℝ, qcd.gluon.dressing_inv_landau_w_field_config k s f0 (FieldConfig.new k.nc m [(k.nf, mq)])
      = qcd.gluon.dressing_inv_landau k s (mq / m) f0 := fun s => conf_single hist s m mq f0
  have e3 : (FieldConfig.new k.nc m [(k.nf, mq)]).gluon = m := rfl
  have z1 := e2 (fun mq => gluon.thermal.zero_matsubara.polarization_quark_l_thermal_part_landau ig k p mq beta mu)
  have z2 := e2 (fun mq => gluon.thermal.zero_matsubara.polarization_quark_t_thermal_part_landau ig k p mq beta mu)
  have z3 := e2 (fun mq => gluon.thermal.zero_matsubara.polarization_quark_l_thermal_part_zero_temp_landau ig k p mq mu)
  have z4 := e2 (fun mq => gluon.thermal.zero_matsubara.polarization_quark_t_thermal_part_zero_temp_landau ig k p mq mu)
  have a1 : qcd.thermal.zero_matsubara.gluon.dressing_l_inv_landau_w_field_config ig k p beta mu f0 (FieldConfig.new k.nc m [(k.nf, mq)]) =
      qcd.thermal.zero_matsubara.gluon.dressing_l_inv_landau ig k p m mq beta mu f0 := by
    simp only [qcd.thermal.zero_matsubara.gluon.dressing_l_inv_landau_w_field_config, qcd.thermal.zero_matsubara.gluon.dressing_l_inv_landau, e3, z1, e1]
    ring
  have a2 : qcd.thermal.zero_matsubara.gluon.dressing_t_inv_landau_w_field_config ig k p beta mu f0 (FieldConfig.new k.nc m [(k.nf, mq)]) =
      qcd.thermal.zero_matsubara.gluon.dressing_t_inv_landau ig k p m mq beta mu f0 := by
    simp only [qcd.thermal.zero_matsubara.gluon.dressing_t_inv_landau_w_field_config, qcd.thermal.zero_matsubara.gluon.dressing_t_inv_landau, e3, e1, z2]
    ring
  have a3 : qcd.thermal.zero_matsubara.gluon.dressing_l_inv_zero_temp_landau_w_field_config ig k p mu f0 (FieldConfig.new k.nc m [(k.nf, mq)]) =
      qcd.thermal.zero_matsubara.gluon.dressing_l_inv_zero_temp_landau ig k p m mq mu f0 := by
    simp only [qcd.thermal.zero_matsubara.gluon.dressing_l_inv_zero_temp_landau_w_field_config, qcd.thermal.zero_matsubara.gluon.dressing_l_inv_zero_temp_landau, e3, z3, e1]
    ring
  have a4 : qcd.thermal.zero_matsubara.gluon.dressing_t_inv_zero_temp_landau_w_field_config ig k p mu f0 (FieldConfig.new k.nc m [(k.nf, mq)]) =
      qcd.thermal.zero_matsubara.gluon.dressing_t_inv_zero_temp_landau ig k p m mq mu f0 := by
    simp only [qcd.thermal.zero_matsubara.gluon.dressing_t_inv_zero_temp_landau_w_field_config, qcd.thermal.zero_matsubara.gluon.dressing_t_inv_zero_temp_landau, e3, e1, z4]
    ring
  constructor
  · simp only [qcd.thermal.zero_matsubara.gluon.configValues, qcd.thermal.zero_matsubara.gluon.values, qcd.thermal.zero_matsubara.gluon.dressing_l_landau_w_field_config, qcd.thermal.zero_matsubara.gluon.dressing_t_landau_w_field_config, qcd.thermal.zero_matsubara.gluon.propagator_l_landau_w_field_config, qcd.thermal.zero_matsubara.gluon.propagator_t_landau_w_field_config, qcd.thermal.zero_matsubara.gluon.dressing_l_landau, qcd.thermal.zero_matsubara.gluon.dressing_t_landau, qcd.thermal.zero_matsubara.gluon.propagator_l_landau, qcd.thermal.zero_matsubara.gluon.propagator_t_landau, a1, a2]
    skip
  · simp only [qcd.thermal.zero_matsubara.gluon.configZeroTempValues, qcd.thermal.zero_matsubara.gluon.zeroTempValues, qcd.thermal.zero_matsubara.gluon.dressing_l_zero_temp_landau_w_field_config, qcd.thermal.zero_matsubara.gluon.dressing_t_zero_temp_landau_w_field_config, qcd.thermal.zero_matsubara.gluon.propagator_l_zero_temp_landau_w_field_config, qcd.thermal.zero_matsubara.gluon.propagator_t_zero_temp_landau_w_field_config, qcd.thermal.zero_matsubara.gluon.dressing_l_zero_temp_landau, qcd.thermal.zero_matsubara.gluon.dressing_t_zero_temp_landau, qcd.thermal.zero_matsubara.gluon.propagator_l_zero_temp_landau, qcd.thermal.zero_matsubara.gluon.propagator_t_zero_temp_landau, a3, a4]
    skip

/-! ### qcd::thermal::zero_momentum::gluon -/

/-- **C44** (`qcd::thermal::zero_momentum::gluon`): with no fermions, after any history of setter calls, the six functions are
those of Yang-Mills theory, for every integrator. -/
theorem C44_no_fermions_zero_momentum (ig : Integrator) (h : List (consts.Setter ℝ)) (hnf : (consts.after h).nf = 0)
    (om : T) (m mq beta mu f0 : ℝ) :
    qcd.thermal.zero_momentum.gluon.values ig (consts.after h) om m mq beta mu f0 = ym.thermal.zero_momentum.gluon.values ig (consts.after h) om m beta f0 := by
  simp only [qcd.thermal.zero_momentum.gluon.values, ym.thermal.zero_momentum.gluon.values, qcd.thermal.zero_momentum.gluon.dressing_l_inv_landau, qcd.thermal.zero_momentum.gluon.dressing_t_inv_landau, qcd.thermal.zero_momentum.gluon.dressing_l_landau, qcd.thermal.zero_momentum.gluon.dressing_t_landau, qcd.thermal.zero_momentum.gluon.propagator_l_landau, qcd.thermal.zero_momentum.gluon.propagator_t_landau, ym.thermal.zero_momentum.gluon.dressing_l_inv_landau, ym.thermal.zero_momentum.gluon.dressing_t_inv_landau, ym.thermal.zero_momentum.gluon.dressing_l_landau, ym.thermal.zero_momentum.gluon.dressing_t_landau, ym.thermal.zero_momentum.gluon.propagator_l_landau, ym.thermal.zero_momentum.gluon.propagator_t_landau,
    glob_nf0 h hnf, hnf, glue_lt, one_mul, Nat.cast_zero, ofR_zero, zero_mul, mul_zero, add_zero, zero_add, sub_zero, zero_div, one_div, ofR_complex, Complex.ofReal_zero, Complex.ofReal_one]

/-- **C44** (zero temperature, no fermions): the vacuum Yang-Mills values. -/
theorem C44_no_fermions_zero_temp_zero_momentum (ig : Integrator) (h : List (consts.Setter ℝ))
    (hnf : (consts.after h).nf = 0) (om : T) (m mq mu f0 : ℝ) :
    qcd.thermal.zero_momentum.gluon.zeroTempValues ig (consts.after h) om m mq mu f0 =
      vacuumValues (toC (om * om)) (toC (ym.gluon.dressing_inv_landau ((om * om) / ofR (m * m)) f0)) := by
  simp only [qcd.thermal.zero_momentum.gluon.zeroTempValues, vacuumValues, qcd.thermal.zero_momentum.gluon.dressing_l_inv_zero_temp_landau, qcd.thermal.zero_momentum.gluon.dressing_t_inv_zero_temp_landau, qcd.thermal.zero_momentum.gluon.dressing_l_zero_temp_landau, qcd.thermal.zero_momentum.gluon.dressing_t_zero_temp_landau, qcd.thermal.zero_momentum.gluon.propagator_l_zero_temp_landau, qcd.thermal.zero_momentum.gluon.propagator_t_zero_temp_landau,
    glob_nf0 h hnf, hnf, glue_lt, one_mul, Nat.cast_zero, ofR_zero, zero_mul, mul_zero, add_zero, zero_add, sub_zero, zero_div, one_div, ofR_complex, Complex.ofReal_zero, Complex.ofReal_one, map_zero, map_inv₀, div_eq_inv_mul, div_eq_mul_inv, mul_comm]

/-- **C44** (zero temperature, `|mu| < |mq|`): the vacuum QCD values, for every integrator. -/
theorem C44_zero_density_zero_momentum (ig : Integrator) (k : Consts ℝ) (om : T) (m mq mu f0 : ℝ) (hmu : |mu| < |mq|) :
    qcd.thermal.zero_momentum.gluon.zeroTempValues ig k om m mq mu f0 =
      vacuumValues (toC (om * om)) (toC (qcd.gluon.dressing_inv_landau k ((om * om) / ofR (m * m)) (mq / m) f0)) := by
  simp only [qcd.thermal.zero_momentum.gluon.zeroTempValues, vacuumValues, qcd.thermal.zero_momentum.gluon.dressing_l_inv_zero_temp_landau, qcd.thermal.zero_momentum.gluon.dressing_t_inv_zero_temp_landau, qcd.thermal.zero_momentum.gluon.dressing_l_zero_temp_landau, qcd.thermal.zero_momentum.gluon.dressing_t_zero_temp_landau, qcd.thermal.zero_momentum.gluon.propagator_l_zero_temp_landau, qcd.thermal.zero_momentum.gluon.propagator_t_zero_temp_landau,
    gluon.thermal.zero_momentum.polarization_quark_l_thermal_part_zero_temp_landau, gluon.thermal.zero_momentum.polarization_quark_t_thermal_part_zero_temp_landau, gluon.thermal.zero_momentum.polarization_quark_l_thermal_part_zero_temp_landau_w_method, gluon.thermal.zero_momentum.polarization_quark_t_thermal_part_zero_temp_landau_w_method, if_pos hmu, glue_lt, one_mul, Nat.cast_zero, ofR_zero, zero_mul, mul_zero, add_zero, zero_add, sub_zero, zero_div, one_div, ofR_complex, Complex.ofReal_zero, Complex.ofReal_one, map_inv₀, div_eq_inv_mul, div_eq_mul_inv, mul_comm]

/-- **C44** (configuration without quarks): every entry of the list has multiplicity 0, in particular the
empty list. -/
theorem C44_no_quarks_zero_momentum (ig : Integrator) (k : Consts ℝ) (om : T) (beta mu f0 : ℝ) (nc : ℕ) (m : ℝ)
    (qs : List (ℕ × ℝ)) (h : ∀ q ∈ qs, q.1 = 0) :
    qcd.thermal.zero_momentum.gluon.configValues ig k om beta mu f0 (FieldConfig.new nc m qs) = ym.thermal.zero_momentum.gluon.values ig k om m beta f0 ∧
    qcd.thermal.zero_momentum.gluon.configZeroTempValues ig k om mu f0 (FieldConfig.new nc m qs) =
      vacuumValues (toC (om * om)) (toC (ym.gluon.dressing_inv_landau ((om * om) / ofR (m * m)) f0)) := by
  have e2 := fun A : ℝ → ℂ => sum_nf0 A (fun n => (ofR (n : ℝ) : ℂ)) (by simp) nc m qs h
  have e3 : (FieldConfig.new nc m qs).gluon = m := rfl
  have z1 := e2 (fun mq => gluon.thermal.zero_momentum.polarization_quark_l_thermal_part_landau ig k om mq beta mu)
  have z2 := e2 (fun mq => gluon.thermal.zero_momentum.polarization_quark_t_thermal_part_landau ig k om mq beta mu)
  have z3 := e2 (fun mq => gluon.thermal.zero_momentum.polarization_quark_l_thermal_part_zero_temp_landau ig k om mq mu)
  have z4 := e2 (fun mq => gluon.thermal.zero_momentum.polarization_quark_t_thermal_part_zero_temp_landau ig k om mq mu)
  have a1 : qcd.thermal.zero_momentum.gluon.dressing_l_inv_landau_w_field_config ig k om beta mu f0 (FieldConfig.new nc m qs) =
      ym.thermal.zero_momentum.gluon.dressing_l_inv_landau ig k om m beta f0 := by
    simp only [qcd.thermal.zero_momentum.gluon.dressing_l_inv_landau_w_field_config, ym.thermal.zero_momentum.gluon.dressing_l_inv_landau, e3, conf_nf0 k _ f0 nc m qs h, z1, add_zero, glue_lt]
    skip
  have a2 : qcd.thermal.zero_momentum.gluon.dressing_t_inv_landau_w_field_config ig k om beta mu f0 (FieldConfig.new nc m qs) =
      ym.thermal.zero_momentum.gluon.dressing_t_inv_landau ig k om m beta f0 := by
    simp only [qcd.thermal.zero_momentum.gluon.dressing_t_inv_landau_w_field_config, ym.thermal.zero_momentum.gluon.dressing_t_inv_landau, ym.thermal.zero_momentum.gluon.dressing_l_inv_landau, e3, conf_nf0 k _ f0 nc m qs h, z2, add_zero, glue_lt]
    skip
  have a3 : qcd.thermal.zero_momentum.gluon.dressing_l_inv_zero_temp_landau_w_field_config ig k om mu f0 (FieldConfig.new nc m qs) =
      (toC (ym.gluon.dressing_inv_landau ((om * om) / ofR (m * m)) f0)) := by
    simp only [qcd.thermal.zero_momentum.gluon.dressing_l_inv_zero_temp_landau_w_field_config, e3, conf_nf0 k _ f0 nc m qs h, z3, mul_zero, zero_div, sub_zero]
    skip
  have a4 : qcd.thermal.zero_momentum.gluon.dressing_t_inv_zero_temp_landau_w_field_config ig k om mu f0 (FieldConfig.new nc m qs) =
      (toC (ym.gluon.dressing_inv_landau ((om * om) / ofR (m * m)) f0)) := by
    simp only [qcd.thermal.zero_momentum.gluon.dressing_t_inv_zero_temp_landau_w_field_config, e3, conf_nf0 k _ f0 nc m qs h, z4, mul_zero, zero_div, sub_zero]
    skip
  constructor
  · simp only [qcd.thermal.zero_momentum.gluon.configValues, ym.thermal.zero_momentum.gluon.values, qcd.thermal.zero_momentum.gluon.dressing_l_landau_w_field_config, qcd.thermal.zero_momentum.gluon.dressing_t_landau_w_field_config, qcd.thermal.zero_momentum.gluon.propagator_l_landau_w_field_config, qcd.thermal.zero_momentum.gluon.propagator_t_landau_w_field_config, ym.thermal.zero_momentum.gluon.dressing_l_landau, ym.thermal.zero_momentum.gluon.dressing_t_landau, ym.thermal.zero_momentum.gluon.propagator_l_landau, ym.thermal.zero_momentum.gluon.propagator_t_landau, a1, a2, one_div, ofR_complex, Complex.ofReal_one]
    skip
  · simp only [qcd.thermal.zero_momentum.gluon.configZeroTempValues, vacuumValues, qcd.thermal.zero_momentum.gluon.dressing_l_zero_temp_landau_w_field_config, qcd.thermal.zero_momentum.gluon.dressing_t_zero_temp_landau_w_field_config, qcd.thermal.zero_momentum.gluon.propagator_l_zero_temp_landau_w_field_config, qcd.thermal.zero_momentum.gluon.propagator_t_zero_temp_landau_w_field_config, a3, a4, div_eq_inv_mul, one_div, map_inv₀, ofR_one, mul_one, ofR_complex, Complex.ofReal_one, one_div, ofR_complex, Complex.ofReal_one]
    skip

/-- **C44** (zero temperature, configuration of quarks heavier than `|mu|`): the vacuum QCD values. -/
theorem C44_zero_density_config_zero_momentum (ig : Integrator) (k : Consts ℝ) (om : T) (mu f0 : ℝ) (nc : ℕ) (m : ℝ)
    (qs : List (ℕ × ℝ)) (h : ∀ q ∈ qs, |mu| < |q.2|) :
    qcd.thermal.zero_momentum.gluon.configZeroTempValues ig k om mu f0 (FieldConfig.new nc m qs) =
      vacuumValues (toC (om * om)) (toC (qcd.gluon.dressing_inv_landau_w_field_config k ((om * om) / ofR (m * m)) f0 (FieldConfig.new nc m qs))) := by
  have e2 := fun (A : ℝ → ℂ) => sum_zero A (fun n => (ofR (n : ℝ) : ℂ)) nc m qs
  have z3 := e2 (fun mq => gluon.thermal.zero_momentum.polarization_quark_l_thermal_part_zero_temp_landau ig k om mq mu)
    (fun q hq => by simp only [gluon.thermal.zero_momentum.polarization_quark_l_thermal_part_zero_temp_landau, gluon.thermal.zero_momentum.polarization_quark_t_thermal_part_zero_temp_landau, gluon.thermal.zero_momentum.polarization_quark_l_thermal_part_zero_temp_landau_w_method, gluon.thermal.zero_momentum.polarization_quark_t_thermal_part_zero_temp_landau_w_method, if_pos (h q hq)])
  have z4 := e2 (fun mq => gluon.thermal.zero_momentum.polarization_quark_t_thermal_part_zero_temp_landau ig k om mq mu)
    (fun q hq => by simp only [gluon.thermal.zero_momentum.polarization_quark_l_thermal_part_zero_temp_landau, gluon.thermal.zero_momentum.polarization_quark_t_thermal_part_zero_temp_landau, gluon.thermal.zero_momentum.polarization_quark_l_thermal_part_zero_temp_landau_w_method, gluon.thermal.zero_momentum.polarization_quark_t_thermal_part_zero_temp_landau_w_method, if_pos (h q hq)])
  have e3 : (FieldConfig.new nc m qs).gluon = m := rfl
  have a3 : qcd.thermal.zero_momentum.gluon.dressing_l_inv_zero_temp_landau_w_field_config ig k om mu f0 (FieldConfig.new nc m qs) =
      (toC (qcd.gluon.dressing_inv_landau_w_field_config k ((om * om) / ofR (m * m)) f0 (FieldConfig.new nc m qs))) := by
    simp only [qcd.thermal.zero_momentum.gluon.dressing_l_inv_zero_temp_landau_w_field_config, e3, z3, mul_zero, zero_div, sub_zero]
    skip
  have a4 : qcd.thermal.zero_momentum.gluon.dressing_t_inv_zero_temp_landau_w_field_config ig k om mu f0 (FieldConfig.new nc m qs) =
      (toC (qcd.gluon.dressing_inv_landau_w_field_config k ((om * om) / ofR (m * m)) f0 (FieldConfig.new nc m qs))) := by
    simp only [qcd.thermal.zero_momentum.gluon.dressing_t_inv_zero_temp_landau_w_field_config, e3, z4, mul_zero, zero_div, sub_zero]
    skip
  simp only [qcd.thermal.zero_momentum.gluon.configZeroTempValues, vacuumValues, qcd.thermal.zero_momentum.gluon.dressing_l_zero_temp_landau_w_field_config, qcd.thermal.zero_momentum.gluon.dressing_t_zero_temp_landau_w_field_config, qcd.thermal.zero_momentum.gluon.propagator_l_zero_temp_landau_w_field_config, qcd.thermal.zero_momentum.gluon.propagator_t_zero_temp_landau_w_field_config, a3, a4, div_eq_inv_mul, one_div, map_inv₀, ofR_one, mul_one, ofR_complex, Complex.ofReal_one, one_div, ofR_complex, Complex.ofReal_one]
  skip

/-- **C44** (interfaces): after any history of setter calls the single-mass functions agree with the
field-configuration functions for one flavour group with the current numbers of colours and fermions. -/
theorem C44_interfaces_zero_momentum (ig : Integrator) (hist : List (consts.Setter ℝ)) (om : T) (m mq beta mu f0 : ℝ)
    :
    let k := consts.after hist
    qcd.thermal.zero_momentum.gluon.configValues ig k om beta mu f0 (FieldConfig.new k.nc m [(k.nf, mq)]) =
      qcd.thermal.zero_momentum.gluon.values ig k om m mq beta mu f0 ∧
    qcd.thermal.zero_momentum.gluon.configZeroTempValues ig k om mu f0 (FieldConfig.new k.nc m [(k.nf, mq)]) =
      qcd.thermal.zero_momentum.gluon.zeroTempValues ig k om m mq mu f0 := by
  intro k
  have e2 := fun A : ℝ → ℂ => sum_single A (fun n => (ofR (n : ℝ) : ℂ)) k.nc k.nf m mq
  have e1 : ∀ s : T, qcd.gluon.dressing_inv_landau_w_field_config k s f0 (FieldConfig.new k.nc m [(k.nf, mq)])
      = qcd.gluon.dressing_inv_landau k s (mq / m) f0 := fun s => conf_single hist s m mq f0
  have e3 : (FieldConfig.new k.nc m [(k.nf, mq)]).gluon = m := rfl
  have z1 := e2 (fun mq => gluon.thermal.zero_momentum.polarization_quark_l_thermal_part_landau ig k om mq beta mu)
  have z2 := e2 (fun mq => gluon.thermal.zero_momentum.polarization_quark_t_thermal_part_landau ig k om mq beta mu)
  have z3 := e2 (fun mq => gluon.thermal.zero_momentum.polarization_quark_l_thermal_part_zero_temp_landau ig k om mq mu)
  have z4 := e2 (fun mq => gluon.thermal.zero_momentum.polarization_quark_t_thermal_part_zero_temp_landau ig k om mq mu)
  have a1 : qcd.thermal.zero_momentum.gluon.dressing_l_inv_landau_w_field_config ig k om beta mu f0 (FieldConfig.new k.nc m [(k.nf, mq)]) =
      qcd.thermal.zero_momentum.gluon.dressing_l_inv_landau ig k om m mq beta mu f0 := by
    simp only [qcd.thermal.zero_momentum.gluon.dressing_l_inv_landau_w_field_config, qcd.thermal.zero_momentum.gluon.dressing_l_inv_landau, e3, z1, e1]
    simp only [toC_complex, toC_real, map_add, map_mul, map_inv₀, map_div₀, toC_ofR, ofR_mul, ofR_real, ofR_complex, Complex.ofReal_mul, Complex.ofReal_natCast]
    ring
  have a2 : qcd.thermal.zero_momentum.gluon.dressing_t_inv_landau_w_field_config ig k om beta mu f0 (FieldConfig.new k.nc m [(k.nf, mq)]) =
      qcd.thermal.zero_momentum.gluon.dressing_t_inv_landau ig k om m mq beta mu f0 := by
    simp only [qcd.thermal.zero_momentum.gluon.dressing_t_inv_landau_w_field_config, qcd.thermal.zero_momentum.gluon.dressing_t_inv_landau, e3, e1, z2]
    simp only [toC_complex, toC_real, map_add, map_mul, map_inv₀, map_div₀, toC_ofR, ofR_mul, ofR_real, ofR_complex, Complex.ofReal_mul, Complex.ofReal_natCast]
    ring
  have a3 : qcd.thermal.zero_momentum.gluon.dressing_l_inv_zero_temp_landau_w_field_config ig k om mu f0 (FieldConfig.new k.nc m [(k.nf, mq)]) =
      qcd.thermal.zero_momentum.gluon.dressing_l_inv_zero_temp_landau ig k om m mq mu f0 := by
    simp only [qcd.thermal.zero_momentum.gluon.dressing_l_inv_zero_temp_landau_w_field_config, qcd.thermal.zero_momentum.gluon.dressing_l_inv_zero_temp_landau, e3, z3, e1]
    simp only [toC_complex, toC_real, map_add, map_mul, map_inv₀, map_div₀, toC_ofR, ofR_mul, ofR_real, ofR_complex, Complex.ofReal_mul, Complex.ofReal_natCast]
    ring
  have a4 : qcd.thermal.zero_momentum.gluon.dressing_t_inv_zero_temp_landau_w_field_config ig k om mu f0 (FieldConfig.new k.nc m [(k.nf, mq)]) =
      qcd.thermal.zero_momentum.gluon.dressing_t_inv_zero_temp_landau ig k om m mq mu f0 := by
    simp only [qcd.thermal.zero_momentum.gluon.dressing_t_inv_zero_temp_landau_w_field_config, qcd.thermal.zero_momentum.gluon.dressing_t_inv_zero_temp_landau, e3, e1, z4]
    simp only [toC_complex, toC_real, map_add, map_mul, map_inv₀, map_div₀, toC_ofR, ofR_mul, ofR_real, ofR_complex, Complex.ofReal_mul, Complex.ofReal_natCast]
    ring
  constructor
  · simp only [qcd.thermal.zero_momentum.gluon.configValues, qcd.thermal.zero_momentum.gluon.values, qcd.thermal.zero_momentum.gluon.dressing_l_landau_w_field_config, qcd.thermal.zero_momentum.gluon.dressing_t_landau_w_field_config, qcd.thermal.zero_momentum.gluon.propagator_l_landau_w_field_config, qcd.thermal.zero_momentum.gluon.propagator_t_landau_w_field_config, qcd.thermal.zero_momentum.gluon.dressing_l_landau, qcd.thermal.zero_momentum.gluon.dressing_t_landau, qcd.thermal.zero_momentum.gluon.propagator_l_landau, qcd.thermal.zero_momentum.gluon.propagator_t_landau, a1, a2, one_div, ofR_complex, Complex.ofReal_one]
    skip
  · simp only [qcd.thermal.zero_momentum.gluon.configZeroTempValues, qcd.thermal.zero_momentum.gluon.zeroTempValues, qcd.thermal.zero_momentum.gluon.dressing_l_zero_temp_landau_w_field_config, qcd.thermal.zero_momentum.gluon.dressing_t_zero_temp_landau_w_field_config, qcd.thermal.zero_momentum.gluon.propagator_l_zero_temp_landau_w_field_config, qcd.thermal.zero_momentum.gluon.propagator_t_zero_temp_landau_w_field_config, qcd.thermal.zero_momentum.gluon.dressing_l_zero_temp_landau, qcd.thermal.zero_momentum.gluon.dressing_t_zero_temp_landau, qcd.thermal.zero_momentum.gluon.propagator_l_zero_temp_landau, qcd.thermal.zero_momentum.gluon.propagator_t_zero_temp_landau, a3, a4, one_div, ofR_complex, Complex.ofReal_one]
    skip

/-! ### The hypotheses can be met -/

example : (consts.after [.number_of_fermions 4, .number_of_colors 2, .number_of_fermions 0] : Consts ℝ).nf = 0 := rfl
example : ∀ q ∈ ([(0, 1), (0, 7)] : List (ℕ × ℝ)), q.1 = 0 := by simp
example : ∀ q ∈ ([(2, 1), (1, -3)] : List (ℕ × ℝ)), |(-1/2 : ℝ)| < |q.2| := by
  intro q hq
  simp only [List.mem_cons, List.not_mem_nil, or_false] at hq
  rcases hq with rfl | rfl <;> norm_num [abs_of_pos, abs_of_neg]
/-- Two flavours after a setter history: the interfaces agree at a real frequency. -/
example (ig : Integrator) :
    let k : Consts ℝ := consts.after [.number_of_fermions 2, .number_of_colors 4]
    qcd.thermal.gluon.configValues ig k (1 : ℝ) 2 5 0.1 0 (FieldConfig.new k.nc 3 [(k.nf, 0.5)]) =
      qcd.thermal.gluon.values ig k (1 : ℝ) 2 3 0.5 5 0.1 0 :=
  (C44_interfaces_general_real ig _ 1 2 3 0.5 5 0.1 0 (by norm_num) (by norm_num) (by norm_num)).1

end Qcd
