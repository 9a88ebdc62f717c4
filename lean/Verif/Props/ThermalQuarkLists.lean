import Verif.Props.ThermalReduction

/-! # C29: quark lists in the thermal functions

Generated by a script. -/

set_option linter.unusedSimpArgs false
set_option linter.unusedVariables false
set_option linter.unusedSectionVars false

namespace Qcd
open consts (Consts)
variable {T : Type} [Num T]

/-! ### Helpers -/

/-- The sum over flavours in the thermal functions. -/
noncomputable def flavourSum {F : Type} [Num F] (A : ℝ → F) (qs : List (ℕ × ℝ)) : F := (qs.map fun q => A q.2 * ofR (q.1 : ℝ)).sum

theorem flavourSum_eq {F : Type} [Num F] (A : ℝ → F) (nc : ℕ) (m : ℝ) (qs : List (ℕ × ℝ)) :
    ((FieldConfig.new nc m qs).quarks_internal.map (fun qi => A qi.mq * ofR (qi.nf : ℝ))).sum = flavourSum A qs := by
  simp [FieldConfig.new, flavourSum, QuarkInternal.new, Function.comp_def]

/-- Two lists with the same sums. -/
def SameSums (T : Type) [Num T] (nc : ℕ) (m : ℝ) (qs qs' : List (ℕ × ℝ)) : Prop :=
  (∀ (F : T → T) s, quarkSum F s nc m qs = quarkSum F s nc m qs') ∧ ∀ A : ℝ → T, flavourSum A qs = flavourSum A qs'

theorem SameSums.of_perm {nc : ℕ} {m : ℝ} {qs qs' : List (ℕ × ℝ)} (h : qs.Perm qs') : SameSums T nc m qs qs' :=
  ⟨fun _ _ => (h.map _).sum_eq, fun _ => (h.map _).sum_eq⟩

theorem SameSums.of_split {nc : ℕ} {m : ℝ} (qs qs' : List (ℕ × ℝ)) (a b : ℕ) (mq : ℝ) :
    SameSums T nc m (qs ++ (a + b, mq) :: qs') (qs ++ (a, mq) :: (b, mq) :: qs') := by
  constructor
  · intro F s
    simp only [quarkSum, List.map_append, List.map_cons, List.sum_append, List.sum_cons]
    simp only [Nat.cast_add, add_div, ofR_add]
    ring
  · intro A
    simp only [flavourSum, List.map_append, List.map_cons, List.sum_append, List.sum_cons]
    simp only [Nat.cast_add, ofR_add]
    ring

theorem SameSums.of_zero {nc : ℕ} {m : ℝ} (qs qs' : List (ℕ × ℝ)) (mq : ℝ) :
    SameSums T nc m (qs ++ (0, mq) :: qs') (qs ++ qs') := by
  constructor <;> intros <;> simp [quarkSum, flavourSum]

theorem SameSums.vac {nc : ℕ} {m : ℝ} {qs qs' : List (ℕ × ℝ)} (h : SameSums T nc m qs qs') (k : Consts ℝ) (s : T) (f0 : ℝ) :
    qcd.gluon.dressing_inv_landau_w_field_config k s f0 (FieldConfig.new nc m qs) =
      qcd.gluon.dressing_inv_landau_w_field_config k s f0 (FieldConfig.new nc m qs') := by
  rw [(C29_additive k s f0 0 nc m qs).1, (C29_additive k s f0 0 nc m qs').1, h.1]

theorem SameSums.flav {nc : ℕ} {m : ℝ} {qs qs' : List (ℕ × ℝ)} (h : SameSums T nc m qs qs') (A : ℝ → T) :
    ((FieldConfig.new nc m qs).quarks_internal.map (fun qi => A qi.mq * ofR (qi.nf : ℝ))).sum =
      ((FieldConfig.new nc m qs').quarks_internal.map (fun qi => A qi.mq * ofR (qi.nf : ℝ))).sum := by
  rw [flavourSum_eq, flavourSum_eq, h.2]

theorem vac_append (k : Consts ℝ) (s : T) (f0 : ℝ) (nc : ℕ) (m : ℝ) (qs qs' : List (ℕ × ℝ)) :
    qcd.gluon.dressing_inv_landau_w_field_config k s f0 (FieldConfig.new nc m (qs ++ qs')) =
      qcd.gluon.dressing_inv_landau_w_field_config k s f0 (FieldConfig.new nc m qs) +
      qcd.gluon.dressing_inv_landau_w_field_config k s f0 (FieldConfig.new nc m qs') -
      qcd.gluon.dressing_inv_landau_w_field_config k s f0 (FieldConfig.new nc m []) := by
  rw [(C29_additive k s f0 0 nc m _).1, (C29_additive k s f0 0 nc m qs).1, (C29_additive k s f0 0 nc m qs').1, (C29_additive k s f0 0 nc m []).1]
  simp only [quarkSum, List.map_append, List.sum_append, List.map_nil, List.sum_nil]
  ring

theorem flav_append {F : Type} [Num F] (A : ℝ → F) (nc : ℕ) (m : ℝ) (qs qs' : List (ℕ × ℝ)) :
    ((FieldConfig.new nc m (qs ++ qs')).quarks_internal.map (fun qi => A qi.mq * ofR (qi.nf : ℝ))).sum =
      ((FieldConfig.new nc m qs).quarks_internal.map (fun qi => A qi.mq * ofR (qi.nf : ℝ))).sum +
      ((FieldConfig.new nc m qs').quarks_internal.map (fun qi => A qi.mq * ofR (qi.nf : ℝ))).sum := by
  simp only [flavourSum_eq, flavourSum, List.map_append, List.sum_append]

theorem flav_nil {F : Type} [Num F] (A : ℝ → F) (nc : ℕ) (m : ℝ) :
    ((FieldConfig.new nc m []).quarks_internal.map (fun qi => A qi.mq * ofR (qi.nf : ℝ))).sum = 0 := by
  rw [flavourSum_eq]; rfl

theorem flav_real (A : ℝ → ℝ) (c : FieldConfig) :
    (c.quarks_internal.map (fun qi => A qi.mq * (qi.nf : ℝ))).sum = (c.quarks_internal.map (fun qi => A qi.mq * ofR (qi.nf : ℝ))).sum := rfl

/-! ### `qcd::thermal::gluon` -/

theorem sums_general (ig : Integrator) (k : Consts ℝ) (om : T) (p : ℝ) (beta mu f0 : ℝ) {nc : ℕ} {m : ℝ} {qs qs' : List (ℕ × ℝ)}
    (h1 : SameSums T nc m qs qs') (h2 : SameSums ℂ nc m qs qs') :
    qcd.thermal.gluon.configValues ig k om p beta mu f0 (FieldConfig.new nc m qs) = qcd.thermal.gluon.configValues ig k om p beta mu f0 (FieldConfig.new nc m qs') ∧
    qcd.thermal.gluon.configZeroTempValues ig k om p mu f0 (FieldConfig.new nc m qs) = qcd.thermal.gluon.configZeroTempValues ig k om p mu f0 (FieldConfig.new nc m qs') := by
  have v1 := fun s => h1.vac k s f0
  have v2 := fun s => h2.vac k s f0
  have e : ∀ qs, (FieldConfig.new nc m qs).gluon = m := fun _ => rfl
  have z1 := h2.flav (fun mq => gluon.thermal.polarization_quark_l_thermal_part_landau ig k om p mq beta mu)
  have z2 := h2.flav (fun mq => gluon.thermal.polarization_quark_t_thermal_part_landau ig k om p mq beta mu)
  have z3 := h2.flav (fun mq => gluon.thermal.polarization_quark_l_thermal_part_zero_temp_landau ig k om p mq mu)
  have z4 := h2.flav (fun mq => gluon.thermal.polarization_quark_t_thermal_part_zero_temp_landau ig k om p mq mu)
  constructor
  · simp only [qcd.thermal.gluon.configValues, qcd.thermal.gluon.dressing_l_inv_landau_w_field_config, qcd.thermal.gluon.dressing_t_inv_landau_w_field_config, qcd.thermal.gluon.dressing_l_landau_w_field_config, qcd.thermal.gluon.dressing_t_landau_w_field_config, qcd.thermal.gluon.propagator_l_landau_w_field_config, qcd.thermal.gluon.propagator_t_landau_w_field_config, v1, v2, e, z1, z2]
  · simp only [qcd.thermal.gluon.configZeroTempValues, qcd.thermal.gluon.dressing_l_inv_zero_temp_landau_w_field_config, qcd.thermal.gluon.dressing_t_inv_zero_temp_landau_w_field_config, qcd.thermal.gluon.dressing_l_zero_temp_landau_w_field_config, qcd.thermal.gluon.dressing_t_zero_temp_landau_w_field_config, qcd.thermal.gluon.propagator_l_zero_temp_landau_w_field_config, qcd.thermal.gluon.propagator_t_zero_temp_landau_w_field_config, v1, v2, e, z3, z4]

/-- **C29** (thermal, order): permuting the quark list changes nothing. -/
theorem C29_order_general (ig : Integrator) (k : Consts ℝ) (om : T) (p : ℝ) (beta mu f0 : ℝ) (nc : ℕ) (m : ℝ) {qs qs' : List (ℕ × ℝ)} (h : qs.Perm qs') :
    qcd.thermal.gluon.configValues ig k om p beta mu f0 (FieldConfig.new nc m qs) = qcd.thermal.gluon.configValues ig k om p beta mu f0 (FieldConfig.new nc m qs') ∧
    qcd.thermal.gluon.configZeroTempValues ig k om p mu f0 (FieldConfig.new nc m qs) = qcd.thermal.gluon.configZeroTempValues ig k om p mu f0 (FieldConfig.new nc m qs') :=
  sums_general ig k om p beta mu f0 (.of_perm h) (.of_perm h)

/-- **C29** (thermal, splitting): `(a + b, mq)` is the same as `(a, mq), (b, mq)`. -/
theorem C29_split_general (ig : Integrator) (k : Consts ℝ) (om : T) (p : ℝ) (beta mu f0 : ℝ) (nc : ℕ) (m : ℝ) (qs qs' : List (ℕ × ℝ)) (a b : ℕ) (mq : ℝ) :
    qcd.thermal.gluon.configValues ig k om p beta mu f0 (FieldConfig.new nc m (qs ++ (a + b, mq) :: qs')) =
      qcd.thermal.gluon.configValues ig k om p beta mu f0 (FieldConfig.new nc m (qs ++ (a, mq) :: (b, mq) :: qs')) ∧
    qcd.thermal.gluon.configZeroTempValues ig k om p mu f0 (FieldConfig.new nc m (qs ++ (a + b, mq) :: qs')) =
      qcd.thermal.gluon.configZeroTempValues ig k om p mu f0 (FieldConfig.new nc m (qs ++ (a, mq) :: (b, mq) :: qs')) :=
  sums_general ig k om p beta mu f0 (.of_split qs qs' a b mq) (.of_split qs qs' a b mq)

/-- **C29** (thermal, zero flavours): an entry with no flavours is irrelevant. -/
theorem C29_zero_entry_general (ig : Integrator) (k : Consts ℝ) (om : T) (p : ℝ) (beta mu f0 : ℝ) (nc : ℕ) (m : ℝ) (qs qs' : List (ℕ × ℝ)) (mq : ℝ) :
    qcd.thermal.gluon.configValues ig k om p beta mu f0 (FieldConfig.new nc m (qs ++ (0, mq) :: qs')) =
      qcd.thermal.gluon.configValues ig k om p beta mu f0 (FieldConfig.new nc m (qs ++ qs')) ∧
    qcd.thermal.gluon.configZeroTempValues ig k om p mu f0 (FieldConfig.new nc m (qs ++ (0, mq) :: qs')) =
      qcd.thermal.gluon.configZeroTempValues ig k om p mu f0 (FieldConfig.new nc m (qs ++ qs')) :=
  sums_general ig k om p beta mu f0 (.of_zero qs qs' mq) (.of_zero qs qs' mq)

/-- **C29** (thermal, additivity): the inverse dressings are additive in the quark list, relative to the theory without quarks. -/
theorem C29_additive_general (ig : Integrator) (k : Consts ℝ) (om : T) (p : ℝ) (beta mu f0 : ℝ) (nc : ℕ) (m : ℝ) (qs qs' : List (ℕ × ℝ)) :
    (qcd.thermal.gluon.dressing_l_inv_landau_w_field_config ig k om p beta mu f0 (FieldConfig.new nc m (qs ++ qs')) =
      qcd.thermal.gluon.dressing_l_inv_landau_w_field_config ig k om p beta mu f0 (FieldConfig.new nc m qs) + qcd.thermal.gluon.dressing_l_inv_landau_w_field_config ig k om p beta mu f0 (FieldConfig.new nc m qs') - qcd.thermal.gluon.dressing_l_inv_landau_w_field_config ig k om p beta mu f0 (FieldConfig.new nc m [])) ∧
    (qcd.thermal.gluon.dressing_l_inv_zero_temp_landau_w_field_config ig k om p mu f0 (FieldConfig.new nc m (qs ++ qs')) =
      qcd.thermal.gluon.dressing_l_inv_zero_temp_landau_w_field_config ig k om p mu f0 (FieldConfig.new nc m qs) + qcd.thermal.gluon.dressing_l_inv_zero_temp_landau_w_field_config ig k om p mu f0 (FieldConfig.new nc m qs') - qcd.thermal.gluon.dressing_l_inv_zero_temp_landau_w_field_config ig k om p mu f0 (FieldConfig.new nc m [])) ∧
    (qcd.thermal.gluon.dressing_t_inv_landau_w_field_config ig k om p beta mu f0 (FieldConfig.new nc m (qs ++ qs')) =
      qcd.thermal.gluon.dressing_t_inv_landau_w_field_config ig k om p beta mu f0 (FieldConfig.new nc m qs) + qcd.thermal.gluon.dressing_t_inv_landau_w_field_config ig k om p beta mu f0 (FieldConfig.new nc m qs') - qcd.thermal.gluon.dressing_t_inv_landau_w_field_config ig k om p beta mu f0 (FieldConfig.new nc m [])) ∧
    (qcd.thermal.gluon.dressing_t_inv_zero_temp_landau_w_field_config ig k om p mu f0 (FieldConfig.new nc m (qs ++ qs')) =
      qcd.thermal.gluon.dressing_t_inv_zero_temp_landau_w_field_config ig k om p mu f0 (FieldConfig.new nc m qs) + qcd.thermal.gluon.dressing_t_inv_zero_temp_landau_w_field_config ig k om p mu f0 (FieldConfig.new nc m qs') - qcd.thermal.gluon.dressing_t_inv_zero_temp_landau_w_field_config ig k om p mu f0 (FieldConfig.new nc m [])) := by
  have e : ∀ qs, (FieldConfig.new nc m qs).gluon = m := fun _ => rfl
  have v1 := fun s : T => vac_append k s f0 nc m qs qs'
  have v2 := fun s : ℂ => vac_append k s f0 nc m qs qs'
  have n0 := fun A : ℝ → ℂ => flav_nil A nc m
  have z1 := flav_append (fun mq => gluon.thermal.polarization_quark_l_thermal_part_landau ig k om p mq beta mu) nc m qs qs'
  have z2 := flav_append (fun mq => gluon.thermal.polarization_quark_t_thermal_part_landau ig k om p mq beta mu) nc m qs qs'
  have z3 := flav_append (fun mq => gluon.thermal.polarization_quark_l_thermal_part_zero_temp_landau ig k om p mq mu) nc m qs qs'
  have z4 := flav_append (fun mq => gluon.thermal.polarization_quark_t_thermal_part_zero_temp_landau ig k om p mq mu) nc m qs qs'
  have y1 := n0 (fun mq => gluon.thermal.polarization_quark_l_thermal_part_landau ig k om p mq beta mu)
  have y2 := n0 (fun mq => gluon.thermal.polarization_quark_t_thermal_part_landau ig k om p mq beta mu)
  have y3 := n0 (fun mq => gluon.thermal.polarization_quark_l_thermal_part_zero_temp_landau ig k om p mq mu)
  have y4 := n0 (fun mq => gluon.thermal.polarization_quark_t_thermal_part_zero_temp_landau ig k om p mq mu)
  refine ⟨?_, ?_, ?_, ?_⟩
  · simp only [qcd.thermal.gluon.dressing_l_inv_landau_w_field_config, e, v1, v2, z1, y1, map_add, map_sub]
    ring
  · simp only [qcd.thermal.gluon.dressing_l_inv_zero_temp_landau_w_field_config, e, v1, v2, z3, y3, map_add, map_sub]
    ring
  · simp only [qcd.thermal.gluon.dressing_t_inv_landau_w_field_config, e, v1, v2, z2, y2, map_add, map_sub]
    ring
  · simp only [qcd.thermal.gluon.dressing_t_inv_zero_temp_landau_w_field_config, e, v1, v2, z4, y4, map_add, map_sub]
    ring

/-! ### `qcd::thermal::zero_matsubara::gluon` -/

theorem sums_zero_matsubara (ig : Integrator) (k : Consts ℝ) (p : ℝ) (beta mu f0 : ℝ) {nc : ℕ} {m : ℝ} {qs qs' : List (ℕ × ℝ)}
    (h1 : SameSums ℝ nc m qs qs') :
    qcd.thermal.zero_matsubara.gluon.configValues ig k p beta mu f0 (FieldConfig.new nc m qs) = qcd.thermal.zero_matsubara.gluon.configValues ig k p beta mu f0 (FieldConfig.new nc m qs') ∧
    qcd.thermal.zero_matsubara.gluon.configZeroTempValues ig k p mu f0 (FieldConfig.new nc m qs) = qcd.thermal.zero_matsubara.gluon.configZeroTempValues ig k p mu f0 (FieldConfig.new nc m qs') := by
  have v1 := fun s => h1.vac k s f0
  have v2 := fun s => h1.vac k s f0
  have e : ∀ qs, (FieldConfig.new nc m qs).gluon = m := fun _ => rfl
  have z1 := h1.flav (fun mq => gluon.thermal.zero_matsubara.polarization_quark_l_thermal_part_landau ig k p mq beta mu)
  have z2 := h1.flav (fun mq => gluon.thermal.zero_matsubara.polarization_quark_t_thermal_part_landau ig k p mq beta mu)
  have z3 := h1.flav (fun mq => gluon.thermal.zero_matsubara.polarization_quark_l_thermal_part_zero_temp_landau ig k p mq mu)
  have z4 := h1.flav (fun mq => gluon.thermal.zero_matsubara.polarization_quark_t_thermal_part_zero_temp_landau ig k p mq mu)
  simp only [ofR_real] at z1 z2 z3 z4
  constructor
  · simp only [qcd.thermal.zero_matsubara.gluon.configValues, qcd.thermal.zero_matsubara.gluon.dressing_l_inv_landau_w_field_config, qcd.thermal.zero_matsubara.gluon.dressing_t_inv_landau_w_field_config, qcd.thermal.zero_matsubara.gluon.dressing_l_landau_w_field_config, qcd.thermal.zero_matsubara.gluon.dressing_t_landau_w_field_config, qcd.thermal.zero_matsubara.gluon.propagator_l_landau_w_field_config, qcd.thermal.zero_matsubara.gluon.propagator_t_landau_w_field_config, v1, v2, e, z1, z2]
  · simp only [qcd.thermal.zero_matsubara.gluon.configZeroTempValues, qcd.thermal.zero_matsubara.gluon.dressing_l_inv_zero_temp_landau_w_field_config, qcd.thermal.zero_matsubara.gluon.dressing_t_inv_zero_temp_landau_w_field_config, qcd.thermal.zero_matsubara.gluon.dressing_l_zero_temp_landau_w_field_config, qcd.thermal.zero_matsubara.gluon.dressing_t_zero_temp_landau_w_field_config, qcd.thermal.zero_matsubara.gluon.propagator_l_zero_temp_landau_w_field_config, qcd.thermal.zero_matsubara.gluon.propagator_t_zero_temp_landau_w_field_config, v1, v2, e, z3, z4]

/-- **C29** (thermal, order): permuting the quark list changes nothing. -/
theorem C29_order_zero_matsubara (ig : Integrator) (k : Consts ℝ) (p : ℝ) (beta mu f0 : ℝ) (nc : ℕ) (m : ℝ) {qs qs' : List (ℕ × ℝ)} (h : qs.Perm qs') :
    qcd.thermal.zero_matsubara.gluon.configValues ig k p beta mu f0 (FieldConfig.new nc m qs) = qcd.thermal.zero_matsubara.gluon.configValues ig k p beta mu f0 (FieldConfig.new nc m qs') ∧
    qcd.thermal.zero_matsubara.gluon.configZeroTempValues ig k p mu f0 (FieldConfig.new nc m qs) = qcd.thermal.zero_matsubara.gluon.configZeroTempValues ig k p mu f0 (FieldConfig.new nc m qs') :=
  sums_zero_matsubara ig k p beta mu f0 (.of_perm h)

/-- **C29** (thermal, splitting): `(a + b, mq)` is the same as `(a, mq), (b, mq)`. -/
theorem C29_split_zero_matsubara (ig : Integrator) (k : Consts ℝ) (p : ℝ) (beta mu f0 : ℝ) (nc : ℕ) (m : ℝ) (qs qs' : List (ℕ × ℝ)) (a b : ℕ) (mq : ℝ) :
    qcd.thermal.zero_matsubara.gluon.configValues ig k p beta mu f0 (FieldConfig.new nc m (qs ++ (a + b, mq) :: qs')) =
      qcd.thermal.zero_matsubara.gluon.configValues ig k p beta mu f0 (FieldConfig.new nc m (qs ++ (a, mq) :: (b, mq) :: qs')) ∧
    qcd.thermal.zero_matsubara.gluon.configZeroTempValues ig k p mu f0 (FieldConfig.new nc m (qs ++ (a + b, mq) :: qs')) =
      qcd.thermal.zero_matsubara.gluon.configZeroTempValues ig k p mu f0 (FieldConfig.new nc m (qs ++ (a, mq) :: (b, mq) :: qs')) :=
  sums_zero_matsubara ig k p beta mu f0 (.of_split qs qs' a b mq)

/-- **C29** (thermal, zero flavours): an entry with no flavours is irrelevant. -/
theorem C29_zero_entry_zero_matsubara (ig : Integrator) (k : Consts ℝ) (p : ℝ) (beta mu f0 : ℝ) (nc : ℕ) (m : ℝ) (qs qs' : List (ℕ × ℝ)) (mq : ℝ) :
    qcd.thermal.zero_matsubara.gluon.configValues ig k p beta mu f0 (FieldConfig.new nc m (qs ++ (0, mq) :: qs')) =
      qcd.thermal.zero_matsubara.gluon.configValues ig k p beta mu f0 (FieldConfig.new nc m (qs ++ qs')) ∧
    qcd.thermal.zero_matsubara.gluon.configZeroTempValues ig k p mu f0 (FieldConfig.new nc m (qs ++ (0, mq) :: qs')) =
      qcd.thermal.zero_matsubara.gluon.configZeroTempValues ig k p mu f0 (FieldConfig.new nc m (qs ++ qs')) :=
  sums_zero_matsubara ig k p beta mu f0 (.of_zero qs qs' mq)

/-- **C29** (thermal, additivity): the inverse dressings are additive in the quark list, relative to the theory without quarks. -/
theorem C29_additive_zero_matsubara (ig : Integrator) (k : Consts ℝ) (p : ℝ) (beta mu f0 : ℝ) (nc : ℕ) (m : ℝ) (qs qs' : List (ℕ × ℝ)) :
    (qcd.thermal.zero_matsubara.gluon.dressing_l_inv_landau_w_field_config ig k p beta mu f0 (FieldConfig.new nc m (qs ++ qs')) =
      qcd.thermal.zero_matsubara.gluon.dressing_l_inv_landau_w_field_config ig k p beta mu f0 (FieldConfig.new nc m qs) + qcd.thermal.zero_matsubara.gluon.dressing_l_inv_landau_w_field_config ig k p beta mu f0 (FieldConfig.new nc m qs') - qcd.thermal.zero_matsubara.gluon.dressing_l_inv_landau_w_field_config ig k p beta mu f0 (FieldConfig.new nc m [])) ∧
    (qcd.thermal.zero_matsubara.gluon.dressing_l_inv_zero_temp_landau_w_field_config ig k p mu f0 (FieldConfig.new nc m (qs ++ qs')) =
      qcd.thermal.zero_matsubara.gluon.dressing_l_inv_zero_temp_landau_w_field_config ig k p mu f0 (FieldConfig.new nc m qs) + qcd.thermal.zero_matsubara.gluon.dressing_l_inv_zero_temp_landau_w_field_config ig k p mu f0 (FieldConfig.new nc m qs') - qcd.thermal.zero_matsubara.gluon.dressing_l_inv_zero_temp_landau_w_field_config ig k p mu f0 (FieldConfig.new nc m [])) ∧
    (qcd.thermal.zero_matsubara.gluon.dressing_t_inv_landau_w_field_config ig k p beta mu f0 (FieldConfig.new nc m (qs ++ qs')) =
      qcd.thermal.zero_matsubara.gluon.dressing_t_inv_landau_w_field_config ig k p beta mu f0 (FieldConfig.new nc m qs) + qcd.thermal.zero_matsubara.gluon.dressing_t_inv_landau_w_field_config ig k p beta mu f0 (FieldConfig.new nc m qs') - qcd.thermal.zero_matsubara.gluon.dressing_t_inv_landau_w_field_config ig k p beta mu f0 (FieldConfig.new nc m [])) ∧
    (qcd.thermal.zero_matsubara.gluon.dressing_t_inv_zero_temp_landau_w_field_config ig k p mu f0 (FieldConfig.new nc m (qs ++ qs')) =
      qcd.thermal.zero_matsubara.gluon.dressing_t_inv_zero_temp_landau_w_field_config ig k p mu f0 (FieldConfig.new nc m qs) + qcd.thermal.zero_matsubara.gluon.dressing_t_inv_zero_temp_landau_w_field_config ig k p mu f0 (FieldConfig.new nc m qs') - qcd.thermal.zero_matsubara.gluon.dressing_t_inv_zero_temp_landau_w_field_config ig k p mu f0 (FieldConfig.new nc m [])) := by
  have e : ∀ qs, (FieldConfig.new nc m qs).gluon = m := fun _ => rfl
  have v1 := fun s : ℝ => vac_append k s f0 nc m qs qs'
  have v2 := fun s : ℝ => vac_append k s f0 nc m qs qs'
  have n0 := fun A : ℝ → ℝ => flav_nil A nc m
  have z1 := flav_append (fun mq => gluon.thermal.zero_matsubara.polarization_quark_l_thermal_part_landau ig k p mq beta mu) nc m qs qs'
  have z2 := flav_append (fun mq => gluon.thermal.zero_matsubara.polarization_quark_t_thermal_part_landau ig k p mq beta mu) nc m qs qs'
  have z3 := flav_append (fun mq => gluon.thermal.zero_matsubara.polarization_quark_l_thermal_part_zero_temp_landau ig k p mq mu) nc m qs qs'
  have z4 := flav_append (fun mq => gluon.thermal.zero_matsubara.polarization_quark_t_thermal_part_zero_temp_landau ig k p mq mu) nc m qs qs'
  have y1 := n0 (fun mq => gluon.thermal.zero_matsubara.polarization_quark_l_thermal_part_landau ig k p mq beta mu)
  have y2 := n0 (fun mq => gluon.thermal.zero_matsubara.polarization_quark_t_thermal_part_landau ig k p mq beta mu)
  have y3 := n0 (fun mq => gluon.thermal.zero_matsubara.polarization_quark_l_thermal_part_zero_temp_landau ig k p mq mu)
  have y4 := n0 (fun mq => gluon.thermal.zero_matsubara.polarization_quark_t_thermal_part_zero_temp_landau ig k p mq mu)
  simp only [ofR_real] at z1 z2 z3 z4
  simp only [ofR_real] at y1 y2 y3 y4
  refine ⟨?_, ?_, ?_, ?_⟩
  · simp only [qcd.thermal.zero_matsubara.gluon.dressing_l_inv_landau_w_field_config, e, v1, v2, z1, y1, map_add, map_sub]
    ring
  · simp only [qcd.thermal.zero_matsubara.gluon.dressing_l_inv_zero_temp_landau_w_field_config, e, v1, v2, z3, y3, map_add, map_sub]
    ring
  · simp only [qcd.thermal.zero_matsubara.gluon.dressing_t_inv_landau_w_field_config, e, v1, v2, z2, y2, map_add, map_sub]
    ring
  · simp only [qcd.thermal.zero_matsubara.gluon.dressing_t_inv_zero_temp_landau_w_field_config, e, v1, v2, z4, y4, map_add, map_sub]
    ring

/-! ### `qcd::thermal::zero_momentum::gluon` -/

theorem sums_zero_momentum (ig : Integrator) (k : Consts ℝ) (om : T) (beta mu f0 : ℝ) {nc : ℕ} {m : ℝ} {qs qs' : List (ℕ × ℝ)}
    (h1 : SameSums T nc m qs qs') (h2 : SameSums ℂ nc m qs qs') :
    qcd.thermal.zero_momentum.gluon.configValues ig k om beta mu f0 (FieldConfig.new nc m qs) = qcd.thermal.zero_momentum.gluon.configValues ig k om beta mu f0 (FieldConfig.new nc m qs') ∧
    qcd.thermal.zero_momentum.gluon.configZeroTempValues ig k om mu f0 (FieldConfig.new nc m qs) = qcd.thermal.zero_momentum.gluon.configZeroTempValues ig k om mu f0 (FieldConfig.new nc m qs') := by
  have v1 := fun s => h1.vac k s f0
  have v2 := fun s => h2.vac k s f0
  have e : ∀ qs, (FieldConfig.new nc m qs).gluon = m := fun _ => rfl
  have z1 := h2.flav (fun mq => gluon.thermal.zero_momentum.polarization_quark_l_thermal_part_landau ig k om mq beta mu)
  have z2 := h2.flav (fun mq => gluon.thermal.zero_momentum.polarization_quark_t_thermal_part_landau ig k om mq beta mu)
  have z3 := h2.flav (fun mq => gluon.thermal.zero_momentum.polarization_quark_l_thermal_part_zero_temp_landau ig k om mq mu)
  have z4 := h2.flav (fun mq => gluon.thermal.zero_momentum.polarization_quark_t_thermal_part_zero_temp_landau ig k om mq mu)
  constructor
  · simp only [qcd.thermal.zero_momentum.gluon.configValues, qcd.thermal.zero_momentum.gluon.dressing_l_inv_landau_w_field_config, qcd.thermal.zero_momentum.gluon.dressing_t_inv_landau_w_field_config, qcd.thermal.zero_momentum.gluon.dressing_l_landau_w_field_config, qcd.thermal.zero_momentum.gluon.dressing_t_landau_w_field_config, qcd.thermal.zero_momentum.gluon.propagator_l_landau_w_field_config, qcd.thermal.zero_momentum.gluon.propagator_t_landau_w_field_config, v1, v2, e, z1, z2]
  · simp only [qcd.thermal.zero_momentum.gluon.configZeroTempValues, qcd.thermal.zero_momentum.gluon.dressing_l_inv_zero_temp_landau_w_field_config, qcd.thermal.zero_momentum.gluon.dressing_t_inv_zero_temp_landau_w_field_config, qcd.thermal.zero_momentum.gluon.dressing_l_zero_temp_landau_w_field_config, qcd.thermal.zero_momentum.gluon.dressing_t_zero_temp_landau_w_field_config, qcd.thermal.zero_momentum.gluon.propagator_l_zero_temp_landau_w_field_config, qcd.thermal.zero_momentum.gluon.propagator_t_zero_temp_landau_w_field_config, v1, v2, e, z3, z4]

/-- **C29** (thermal, order): permuting the quark list changes nothing. -/
theorem C29_order_zero_momentum (ig : Integrator) (k : Consts ℝ) (om : T) (beta mu f0 : ℝ) (nc : ℕ) (m : ℝ) {qs qs' : List (ℕ × ℝ)} (h : qs.Perm qs') :
    qcd.thermal.zero_momentum.gluon.configValues ig k om beta mu f0 (FieldConfig.new nc m qs) = qcd.thermal.zero_momentum.gluon.configValues ig k om beta mu f0 (FieldConfig.new nc m qs') ∧
    qcd.thermal.zero_momentum.gluon.configZeroTempValues ig k om mu f0 (FieldConfig.new nc m qs) = qcd.thermal.zero_momentum.gluon.configZeroTempValues ig k om mu f0 (FieldConfig.new nc m qs') :=
  sums_zero_momentum ig k om beta mu f0 (.of_perm h) (.of_perm h)

/-- **C29** (thermal, splitting): `(a + b, mq)` is the same as `(a, mq), (b, mq)`. -/
theorem C29_split_zero_momentum (ig : Integrator) (k : Consts ℝ) (om : T) (beta mu f0 : ℝ) (nc : ℕ) (m : ℝ) (qs qs' : List (ℕ × ℝ)) (a b : ℕ) (mq : ℝ) :
    qcd.thermal.zero_momentum.gluon.configValues ig k om beta mu f0 (FieldConfig.new nc m (qs ++ (a + b, mq) :: qs')) =
      qcd.thermal.zero_momentum.gluon.configValues ig k om beta mu f0 (FieldConfig.new nc m (qs ++ (a, mq) :: (b, mq) :: qs')) ∧
    qcd.thermal.zero_momentum.gluon.configZeroTempValues ig k om mu f0 (FieldConfig.new nc m (qs ++ (a + b, mq) :: qs')) =
      qcd.thermal.zero_momentum.gluon.configZeroTempValues ig k om mu f0 (FieldConfig.new nc m (qs ++ (a, mq) :: (b, mq) :: qs')) :=
  sums_zero_momentum ig k om beta mu f0 (.of_split qs qs' a b mq) (.of_split qs qs' a b mq)

/-- **C29** (thermal, zero flavours): an entry with no flavours is irrelevant. -/
theorem C29_zero_entry_zero_momentum (ig : Integrator) (k : Consts ℝ) (om : T) (beta mu f0 : ℝ) (nc : ℕ) (m : ℝ) (qs qs' : List (ℕ × ℝ)) (mq : ℝ) :
    qcd.thermal.zero_momentum.gluon.configValues ig k om beta mu f0 (FieldConfig.new nc m (qs ++ (0, mq) :: qs')) =
      qcd.thermal.zero_momentum.gluon.configValues ig k om beta mu f0 (FieldConfig.new nc m (qs ++ qs')) ∧
    qcd.thermal.zero_momentum.gluon.configZeroTempValues ig k om mu f0 (FieldConfig.new nc m (qs ++ (0, mq) :: qs')) =
      qcd.thermal.zero_momentum.gluon.configZeroTempValues ig k om mu f0 (FieldConfig.new nc m (qs ++ qs')) :=
  sums_zero_momentum ig k om beta mu f0 (.of_zero qs qs' mq) (.of_zero qs qs' mq)

/-- **C29** (thermal, additivity): the inverse dressings are additive in the quark list, relative to the theory without quarks. -/
theorem C29_additive_zero_momentum (ig : Integrator) (k : Consts ℝ) (om : T) (beta mu f0 : ℝ) (nc : ℕ) (m : ℝ) (qs qs' : List (ℕ × ℝ)) :
    (qcd.thermal.zero_momentum.gluon.dressing_l_inv_landau_w_field_config ig k om beta mu f0 (FieldConfig.new nc m (qs ++ qs')) =
      qcd.thermal.zero_momentum.gluon.dressing_l_inv_landau_w_field_config ig k om beta mu f0 (FieldConfig.new nc m qs) + qcd.thermal.zero_momentum.gluon.dressing_l_inv_landau_w_field_config ig k om beta mu f0 (FieldConfig.new nc m qs') - qcd.thermal.zero_momentum.gluon.dressing_l_inv_landau_w_field_config ig k om beta mu f0 (FieldConfig.new nc m [])) ∧
    (qcd.thermal.zero_momentum.gluon.dressing_l_inv_zero_temp_landau_w_field_config ig k om mu f0 (FieldConfig.new nc m (qs ++ qs')) =
      qcd.thermal.zero_momentum.gluon.dressing_l_inv_zero_temp_landau_w_field_config ig k om mu f0 (FieldConfig.new nc m qs) + qcd.thermal.zero_momentum.gluon.dressing_l_inv_zero_temp_landau_w_field_config ig k om mu f0 (FieldConfig.new nc m qs') - qcd.thermal.zero_momentum.gluon.dressing_l_inv_zero_temp_landau_w_field_config ig k om mu f0 (FieldConfig.new nc m [])) ∧
    (qcd.thermal.zero_momentum.gluon.dressing_t_inv_landau_w_field_config ig k om beta mu f0 (FieldConfig.new nc m (qs ++ qs')) =
      qcd.thermal.zero_momentum.gluon.dressing_t_inv_landau_w_field_config ig k om beta mu f0 (FieldConfig.new nc m qs) + qcd.thermal.zero_momentum.gluon.dressing_t_inv_landau_w_field_config ig k om beta mu f0 (FieldConfig.new nc m qs') - qcd.thermal.zero_momentum.gluon.dressing_t_inv_landau_w_field_config ig k om beta mu f0 (FieldConfig.new nc m [])) ∧
    (qcd.thermal.zero_momentum.gluon.dressing_t_inv_zero_temp_landau_w_field_config ig k om mu f0 (FieldConfig.new nc m (qs ++ qs')) =
      qcd.thermal.zero_momentum.gluon.dressing_t_inv_zero_temp_landau_w_field_config ig k om mu f0 (FieldConfig.new nc m qs) + qcd.thermal.zero_momentum.gluon.dressing_t_inv_zero_temp_landau_w_field_config ig k om mu f0 (FieldConfig.new nc m qs') - qcd.thermal.zero_momentum.gluon.dressing_t_inv_zero_temp_landau_w_field_config ig k om mu f0 (FieldConfig.new nc m [])) := by
  have e : ∀ qs, (FieldConfig.new nc m qs).gluon = m := fun _ => rfl
  have v1 := fun s : T => vac_append k s f0 nc m qs qs'
  have v2 := fun s : ℂ => vac_append k s f0 nc m qs qs'
  have n0 := fun A : ℝ → ℂ => flav_nil A nc m
  have z1 := flav_append (fun mq => gluon.thermal.zero_momentum.polarization_quark_l_thermal_part_landau ig k om mq beta mu) nc m qs qs'
  have z2 := flav_append (fun mq => gluon.thermal.zero_momentum.polarization_quark_t_thermal_part_landau ig k om mq beta mu) nc m qs qs'
  have z3 := flav_append (fun mq => gluon.thermal.zero_momentum.polarization_quark_l_thermal_part_zero_temp_landau ig k om mq mu) nc m qs qs'
  have z4 := flav_append (fun mq => gluon.thermal.zero_momentum.polarization_quark_t_thermal_part_zero_temp_landau ig k om mq mu) nc m qs qs'
  have y1 := n0 (fun mq => gluon.thermal.zero_momentum.polarization_quark_l_thermal_part_landau ig k om mq beta mu)
  have y2 := n0 (fun mq => gluon.thermal.zero_momentum.polarization_quark_t_thermal_part_landau ig k om mq beta mu)
  have y3 := n0 (fun mq => gluon.thermal.zero_momentum.polarization_quark_l_thermal_part_zero_temp_landau ig k om mq mu)
  have y4 := n0 (fun mq => gluon.thermal.zero_momentum.polarization_quark_t_thermal_part_zero_temp_landau ig k om mq mu)
  refine ⟨?_, ?_, ?_, ?_⟩
  · simp only [qcd.thermal.zero_momentum.gluon.dressing_l_inv_landau_w_field_config, e, v1, v2, z1, y1, map_add, map_sub]
    ring
  · simp only [qcd.thermal.zero_momentum.gluon.dressing_l_inv_zero_temp_landau_w_field_config, e, v1, v2, z3, y3, map_add, map_sub]
    ring
  · simp only [qcd.thermal.zero_momentum.gluon.dressing_t_inv_landau_w_field_config, e, v1, v2, z2, y2, map_add, map_sub]
    ring
  · simp only [qcd.thermal.zero_momentum.gluon.dressing_t_inv_zero_temp_landau_w_field_config, e, v1, v2, z4, y4, map_add, map_sub]
    ring

/-- A list with a non-trivial permutation and split. -/
example (ig : Integrator) (k : Consts ℝ) (om : ℂ) (p : ℝ) :
    qcd.thermal.gluon.configValues ig k om p 1 2 3 (FieldConfig.new 3 1 [(2, 1), (3, 5)]) =
      qcd.thermal.gluon.configValues ig k om p 1 2 3 (FieldConfig.new 3 1 [(3, 5), (1, 1), (1, 1), (0, 7)]) := by
  rw [(C29_order_general ig k om p 1 2 3 3 1 (List.Perm.swap (3, 5) (2, 1) [])).1]
  rw [show ([(3, 5), (1, 1), (1, 1), (0, 7)] : List (ℕ × ℝ)) = [(3, 5), (1, 1), (1, 1)] ++ (0, 7) :: [] from rfl,
    (C29_zero_entry_general ig k om p 1 2 3 3 1 _ _ _).1]
  exact (C29_split_general ig k om p 1 2 3 3 1 [(3, 5)] [] 1 1 1).1

end Qcd
