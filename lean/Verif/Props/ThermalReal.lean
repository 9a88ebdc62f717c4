import Verif.Props.ThermalComplex
import Verif.Props.VacuumComplex

/-! # C97: the thermal functions at real frequencies

The thermal functions return complex numbers. At a real nonzero frequency their imaginary part is zero, so that the real part, which the
programs keep, is the whole value; and a real frequency and the same frequency given as a complex number lead to the same value.

Generated by a script. -/

namespace Qcd
open consts (Consts Integral)
open Complex
open scoped ComplexConjugate

/-- An even function that takes conjugate values at conjugate points is real on the real axis. -/
theorem symmetric_real {F : ℂ → ℂ} (h : Spec.Symmetric F) {x : ℝ} (hx : x ≠ 0) : (F x).im = 0 := by
  have := h.reflects x (by simpa using hx)
  rw [conj_ofReal] at this
  exact conj_eq_iff_im.1 this.symm

/-! ### Real and complex frequencies: integrals -/

theorem re_ghost (ig : Integrator) (p m beta : ℝ) (om : ℝ) (i : Integral ℝ) : ghost.thermal.self_energy_thermal_part_landau_w_method ig om p m beta i = ghost.thermal.self_energy_thermal_part_landau_w_method ig (om : ℂ) p m beta i := by
  have h : ∀ q, ghost.thermal.self_energy_thermal_part_landau_i q om p m beta = ghost.thermal.self_energy_thermal_part_landau_i q (om : ℂ) p m beta := by
    intro q
    have e1 := toC_ghost_thermal_self_energy_thermal_part_landau_i q om p m beta
    rw [toC_real] at e1
    rw [e1.symm]
  simp only [ghost.thermal.self_energy_thermal_part_landau_w_method, h]

theorem re_glue_l (ig : Integrator) (p m beta : ℝ) (om : ℝ) (i : Integral ℝ) : gluon.thermal.polarization_glue_l_thermal_part_landau_w_method ig om p m beta i = gluon.thermal.polarization_glue_l_thermal_part_landau_w_method ig (om : ℂ) p m beta i := by
  have h : ∀ q, gluon.thermal.polarization_glue_l_thermal_part_landau_i q om p m beta = gluon.thermal.polarization_glue_l_thermal_part_landau_i q (om : ℂ) p m beta := by
    intro q
    have e1 := toC_gluon_thermal_polarization_glue_l_thermal_part_landau_i q om p m beta
    have e2 := toC_gluon_thermal_polarization_glue_l_thermal_part_landau_i q (om : ℂ) p m beta
    rw [toC_real] at e1
    rw [e2.trans e1.symm]
  simp only [gluon.thermal.polarization_glue_l_thermal_part_landau_w_method, h]

theorem re_glue_t (ig : Integrator) (p m beta : ℝ) (om : ℝ) (i : Integral ℝ) : gluon.thermal.polarization_glue_t_thermal_part_landau_w_method ig om p m beta i = gluon.thermal.polarization_glue_t_thermal_part_landau_w_method ig (om : ℂ) p m beta i := by
  have h : ∀ q, gluon.thermal.polarization_glue_t_thermal_part_landau_i q om p m beta = gluon.thermal.polarization_glue_t_thermal_part_landau_i q (om : ℂ) p m beta := by
    intro q
    have e1 := toC_gluon_thermal_polarization_glue_t_thermal_part_landau_i q om p m beta
    rw [toC_real] at e1
    rw [e1.symm]
  simp only [gluon.thermal.polarization_glue_t_thermal_part_landau_w_method, h]

theorem re_quark_l (ig : Integrator) (k : Consts ℝ) (p mq beta mu : ℝ) (om : ℝ) (i : Integral ℝ) : gluon.thermal.polarization_quark_l_thermal_part_landau_w_method ig k om p mq beta mu i = gluon.thermal.polarization_quark_l_thermal_part_landau_w_method ig k (om : ℂ) p mq beta mu i := by
  have h : ∀ q, gluon.thermal.polarization_quark_l_thermal_part_landau_i k q om p mq beta mu = gluon.thermal.polarization_quark_l_thermal_part_landau_i k q (om : ℂ) p mq beta mu := by
    intro q
    have e1 := toC_gluon_thermal_polarization_quark_l_thermal_part_landau_i k q om p mq beta mu
    have e2 := toC_gluon_thermal_polarization_quark_l_thermal_part_landau_i k q (om : ℂ) p mq beta mu
    rw [toC_real] at e1
    rw [e2.trans e1.symm]
  simp only [gluon.thermal.polarization_quark_l_thermal_part_landau_w_method, h]

theorem re_quark_t (ig : Integrator) (k : Consts ℝ) (p mq beta mu : ℝ) (om : ℝ) (i : Integral ℝ) : gluon.thermal.polarization_quark_t_thermal_part_landau_w_method ig k om p mq beta mu i = gluon.thermal.polarization_quark_t_thermal_part_landau_w_method ig k (om : ℂ) p mq beta mu i := by
  have h : ∀ q, gluon.thermal.polarization_quark_t_thermal_part_landau_i k q om p mq beta mu = gluon.thermal.polarization_quark_t_thermal_part_landau_i k q (om : ℂ) p mq beta mu := by
    intro q
    have e1 := toC_gluon_thermal_polarization_quark_t_thermal_part_landau_i k q om p mq beta mu
    rw [toC_real] at e1
    rw [e1.symm]
  simp only [gluon.thermal.polarization_quark_t_thermal_part_landau_w_method, h]

theorem re_quark_l0 (ig : Integrator) (k : Consts ℝ) (p mq mu : ℝ) (om : ℝ) (i : Integral ℝ) : gluon.thermal.polarization_quark_l_thermal_part_zero_temp_landau_w_method ig k om p mq mu i = gluon.thermal.polarization_quark_l_thermal_part_zero_temp_landau_w_method ig k (om : ℂ) p mq mu i := by
  have h : ∀ q, gluon.thermal.polarization_quark_l_thermal_part_zero_temp_landau_i k q om p mq mu = gluon.thermal.polarization_quark_l_thermal_part_zero_temp_landau_i k q (om : ℂ) p mq mu := by
    intro q
    have e1 := toC_gluon_thermal_polarization_quark_l_thermal_part_zero_temp_landau_i k q om p mq mu
    have e2 := toC_gluon_thermal_polarization_quark_l_thermal_part_zero_temp_landau_i k q (om : ℂ) p mq mu
    rw [toC_real] at e1
    rw [e2.trans e1.symm]
  simp only [gluon.thermal.polarization_quark_l_thermal_part_zero_temp_landau_w_method, h]

theorem re_quark_t0 (ig : Integrator) (k : Consts ℝ) (p mq mu : ℝ) (om : ℝ) (i : Integral ℝ) : gluon.thermal.polarization_quark_t_thermal_part_zero_temp_landau_w_method ig k om p mq mu i = gluon.thermal.polarization_quark_t_thermal_part_zero_temp_landau_w_method ig k (om : ℂ) p mq mu i := by
  have h : ∀ q, gluon.thermal.polarization_quark_t_thermal_part_zero_temp_landau_i k q om p mq mu = gluon.thermal.polarization_quark_t_thermal_part_zero_temp_landau_i k q (om : ℂ) p mq mu := by
    intro q
    have e1 := toC_gluon_thermal_polarization_quark_t_thermal_part_zero_temp_landau_i k q om p mq mu
    rw [toC_real] at e1
    rw [e1.symm]
  simp only [gluon.thermal.polarization_quark_t_thermal_part_zero_temp_landau_w_method, h]

theorem re_zm_ghost (ig : Integrator) (m beta : ℝ) (om : ℝ) (i : Integral ℝ) : ghost.thermal.zero_momentum.self_energy_thermal_part_landau_w_method ig om m beta i = ghost.thermal.zero_momentum.self_energy_thermal_part_landau_w_method ig (om : ℂ) m beta i := by
  have h : ∀ q, ghost.thermal.zero_momentum.self_energy_thermal_part_landau_i q om m beta = ghost.thermal.zero_momentum.self_energy_thermal_part_landau_i q (om : ℂ) m beta := by
    intro q
    have e1 := toC_ghost_thermal_zero_momentum_self_energy_thermal_part_landau_i q om m beta
    rw [toC_real] at e1
    rw [e1.symm]
  simp only [ghost.thermal.zero_momentum.self_energy_thermal_part_landau_w_method, h]

theorem re_zm_glue_l (ig : Integrator) (m beta : ℝ) (om : ℝ) (i : Integral ℝ) : gluon.thermal.zero_momentum.polarization_glue_l_thermal_part_landau_w_method ig om m beta i = gluon.thermal.zero_momentum.polarization_glue_l_thermal_part_landau_w_method ig (om : ℂ) m beta i := by
  have h : ∀ q, gluon.thermal.zero_momentum.polarization_glue_l_thermal_part_landau_i q om m beta = gluon.thermal.zero_momentum.polarization_glue_l_thermal_part_landau_i q (om : ℂ) m beta := by
    intro q
    have e1 := toC_gluon_thermal_zero_momentum_polarization_glue_l_thermal_part_landau_i q om m beta
    rw [toC_real] at e1
    rw [e1.symm]
  simp only [gluon.thermal.zero_momentum.polarization_glue_l_thermal_part_landau_w_method, h]

theorem re_zm_glue_t (ig : Integrator) (m beta : ℝ) (om : ℝ) (i : Integral ℝ) : gluon.thermal.zero_momentum.polarization_glue_t_thermal_part_landau_w_method ig om m beta i = gluon.thermal.zero_momentum.polarization_glue_t_thermal_part_landau_w_method ig (om : ℂ) m beta i := by
  have h : ∀ q, gluon.thermal.zero_momentum.polarization_glue_t_thermal_part_landau_i q om m beta = gluon.thermal.zero_momentum.polarization_glue_t_thermal_part_landau_i q (om : ℂ) m beta := by
    intro q
    have e1 := toC_gluon_thermal_zero_momentum_polarization_glue_t_thermal_part_landau_i q om m beta
    rw [toC_real] at e1
    rw [e1.symm]
  simp only [gluon.thermal.zero_momentum.polarization_glue_t_thermal_part_landau_w_method, h]

theorem re_zm_quark_l (ig : Integrator) (k : Consts ℝ) (mq beta mu : ℝ) (om : ℝ) (i : Integral ℝ) : gluon.thermal.zero_momentum.polarization_quark_l_thermal_part_landau_w_method ig k om mq beta mu i = gluon.thermal.zero_momentum.polarization_quark_l_thermal_part_landau_w_method ig k (om : ℂ) mq beta mu i := by
  have h : ∀ q, toC (gluon.thermal.zero_momentum.polarization_quark_l_thermal_part_landau_i k q om mq beta mu) = gluon.thermal.zero_momentum.polarization_quark_l_thermal_part_landau_i k q (om : ℂ) mq beta mu := by
    intro q
    have e1 := toC_gluon_thermal_zero_momentum_polarization_quark_l_thermal_part_landau_i k q om mq beta mu
    rw [toC_real, toC_real] at e1
    simp only [toC_real, toC_complex, e1]
  simp only [gluon.thermal.zero_momentum.polarization_quark_l_thermal_part_landau_w_method, toC_complex, h]

theorem re_zm_quark_t (ig : Integrator) (k : Consts ℝ) (mq beta mu : ℝ) (om : ℝ) (i : Integral ℝ) : gluon.thermal.zero_momentum.polarization_quark_t_thermal_part_landau_w_method ig k om mq beta mu i = gluon.thermal.zero_momentum.polarization_quark_t_thermal_part_landau_w_method ig k (om : ℂ) mq beta mu i := by
  have h : ∀ q, toC (gluon.thermal.zero_momentum.polarization_quark_t_thermal_part_landau_i k q om mq beta mu) = gluon.thermal.zero_momentum.polarization_quark_t_thermal_part_landau_i k q (om : ℂ) mq beta mu := by
    intro q
    have e1 := toC_gluon_thermal_zero_momentum_polarization_quark_t_thermal_part_landau_i k q om mq beta mu
    rw [toC_real, toC_real] at e1
    simp only [toC_real, toC_complex, e1]
  simp only [gluon.thermal.zero_momentum.polarization_quark_t_thermal_part_landau_w_method, toC_complex, h]

theorem re_zm_quark_l0 (ig : Integrator) (k : Consts ℝ) (mq mu : ℝ) (om : ℝ) (i : Integral ℝ) : gluon.thermal.zero_momentum.polarization_quark_l_thermal_part_zero_temp_landau_w_method ig k om mq mu i = gluon.thermal.zero_momentum.polarization_quark_l_thermal_part_zero_temp_landau_w_method ig k (om : ℂ) mq mu i := by
  have h : ∀ q, toC (gluon.thermal.zero_momentum.polarization_quark_l_thermal_part_zero_temp_landau_i k q om mq mu) = gluon.thermal.zero_momentum.polarization_quark_l_thermal_part_zero_temp_landau_i k q (om : ℂ) mq mu := by
    intro q
    have e1 := toC_gluon_thermal_zero_momentum_polarization_quark_l_thermal_part_zero_temp_landau_i k q om mq mu
    rw [toC_real, toC_real] at e1
    simp only [toC_real, toC_complex, e1]
  simp only [gluon.thermal.zero_momentum.polarization_quark_l_thermal_part_zero_temp_landau_w_method, toC_complex, h]

theorem re_zm_quark_t0 (ig : Integrator) (k : Consts ℝ) (mq mu : ℝ) (om : ℝ) (i : Integral ℝ) : gluon.thermal.zero_momentum.polarization_quark_t_thermal_part_zero_temp_landau_w_method ig k om mq mu i = gluon.thermal.zero_momentum.polarization_quark_t_thermal_part_zero_temp_landau_w_method ig k (om : ℂ) mq mu i := by
  have h : ∀ q, toC (gluon.thermal.zero_momentum.polarization_quark_t_thermal_part_zero_temp_landau_i k q om mq mu) = gluon.thermal.zero_momentum.polarization_quark_t_thermal_part_zero_temp_landau_i k q (om : ℂ) mq mu := by
    intro q
    have e1 := toC_gluon_thermal_zero_momentum_polarization_quark_t_thermal_part_zero_temp_landau_i k q om mq mu
    rw [toC_real, toC_real] at e1
    simp only [toC_real, toC_complex, e1]
  simp only [gluon.thermal.zero_momentum.polarization_quark_t_thermal_part_zero_temp_landau_w_method, toC_complex, h]

/-! ### Real and complex momenta squared: vacuum -/

theorem vre_loops {s : ℝ} (hs : 0 < s) : ghost.g (s : ℂ) = (ghost.g s : ℝ) ∧ gluon.f (s : ℂ) = (gluon.f s : ℝ) ∧ gluon.f_q (s : ℂ) = (gluon.f_q s : ℝ) := by
  have h := C21_loops s hs
  simp only [loopValues, List.map_cons, List.map_nil, List.cons.injEq, and_true] at h
  exact ⟨h.1, h.2.2.1, h.2.2.2.2.1⟩

theorem vre_ghost {s : ℝ} (hs : 0 < s) (g0 : ℝ) : ghost.dressing_inv_landau (s : ℂ) g0 = (ghost.dressing_inv_landau s g0 : ℝ) := by
  have : ∀ {T : Type} [NumOps T] (x : T), ghost.dressing_inv_landau x g0 = ghost.g x + ofR g0 := fun _ => rfl
  rw [this, this, (vre_loops hs).1]; push_cast; rfl

theorem vre_ym {s : ℝ} (hs : 0 < s) (f0 : ℝ) : ym.gluon.dressing_inv_landau (s : ℂ) f0 = (ym.gluon.dressing_inv_landau s f0 : ℝ) := by
  have : ∀ {T : Type} [NumOps T] (x : T), ym.gluon.dressing_inv_landau x f0 = gluon.f x + ofR f0 := fun _ => rfl
  rw [this, this, (vre_loops hs).2.1]; push_cast; rfl

theorem vre_qcd (k : Consts ℝ) {s : ℝ} (hs : 0 < s) {mq : ℝ} (hq : mq ≠ 0) (f0 : ℝ) :
    qcd.gluon.dressing_inv_landau k (s : ℂ) mq f0 = (qcd.gluon.dressing_inv_landau k s mq f0 : ℝ) := by
  have : ∀ {T : Type} [NumOps T] (x : T), qcd.gluon.dressing_inv_landau k x mq f0 =
    ym.gluon.dressing_inv_landau x f0 + gluon.f_q (x / ofR (mq * mq)) * ofR k.nf_div_nc := fun _ => rfl
  have q := (vre_loops (div_pos hs (mul_self_pos.2 hq))).2.2
  push_cast at q
  rw [this, this, vre_ym hs]; simp only [ofR_complex, ofR_real]; push_cast; rw [q]

theorem vre_config (k : Consts ℝ) {s : ℝ} (hs : 0 < s) (f0 : ℝ) (nc : ℕ) {m : ℝ} (hm : m ≠ 0) (qs : List (ℕ × ℝ)) (hq : ∀ q ∈ qs, q.2 ≠ 0) :
    qcd.gluon.dressing_inv_landau_w_field_config k (s : ℂ) f0 (FieldConfig.new nc m qs) =
      (qcd.gluon.dressing_inv_landau_w_field_config k s f0 (FieldConfig.new nc m qs) : ℝ) := by
  have h := (C21_qcd k s hs f0 0 0 nc m qs hm hq).1
  simp only [configValues, List.map_cons, List.map_nil, List.cons.injEq, and_true] at h
  first
  | exact h.1
  | exact h.2.1

theorem new_gluon_mass (nc : ℕ) (m : ℝ) (qs : List (ℕ × ℝ)) : (FieldConfig.new nc m qs).gluon = m := rfl

theorem freq_pos {om p m : ℝ} (ho : om ≠ 0) (hm : m ≠ 0) : 0 < (om * om + p * p) / (m * m) :=
  div_pos (by nlinarith [mul_self_pos.2 ho, mul_self_nonneg p]) (mul_self_pos.2 hm)

theorem freq_pos0 {om m : ℝ} (ho : om ≠ 0) (hm : m ≠ 0) : 0 < om * om / (m * m) :=
  div_pos (mul_self_pos.2 ho) (mul_self_pos.2 hm)

/-! ### Real and complex frequencies: inverse dressing functions -/

theorem rd_ym_ghost (ig : Integrator) (k : Consts ℝ) (p m beta f0 : ℝ) (hm : m ≠ 0) {om : ℝ} (ho : om ≠ 0) : ym.thermal.ghost.dressing_inv_landau ig k om p m beta f0 = ym.thermal.ghost.dressing_inv_landau ig k (om : ℂ) p m beta f0 := by
  have hs := freq_pos (p := p) ho hm
  have hv := vre_ghost hs f0
  push_cast at hv
  simp only [ym.thermal.ghost.dressing_inv_landau, ghost.thermal.self_energy_thermal_part_landau, re_ghost, toC_complex, toC_real, ofR_complex, ofR_real, new_gluon_mass]
  push_cast
  rw [hv]

theorem rd_ym_l (ig : Integrator) (k : Consts ℝ) (p m beta f0 : ℝ) (hm : m ≠ 0) {om : ℝ} (ho : om ≠ 0) : ym.thermal.gluon.dressing_l_inv_landau ig k om p m beta f0 = ym.thermal.gluon.dressing_l_inv_landau ig k (om : ℂ) p m beta f0 := by
  have hs := freq_pos (p := p) ho hm
  have hv := vre_ym hs f0
  push_cast at hv
  simp only [ym.thermal.gluon.dressing_l_inv_landau, gluon.thermal.polarization_glue_l_thermal_part_landau, re_glue_l, toC_complex, toC_real, ofR_complex, ofR_real, new_gluon_mass]
  push_cast
  rw [hv]

theorem rd_qcd_l (ig : Integrator) (k : Consts ℝ) (p m mq beta mu f0 : ℝ) (hm : m ≠ 0) (hq : mq ≠ 0) {om : ℝ} (ho : om ≠ 0) : qcd.thermal.gluon.dressing_l_inv_landau ig k om p m mq beta mu f0 = qcd.thermal.gluon.dressing_l_inv_landau ig k (om : ℂ) p m mq beta mu f0 := by
  have hs := freq_pos (p := p) ho hm
  have hv := vre_qcd k hs (div_ne_zero hq hm) f0
  push_cast at hv
  simp only [qcd.thermal.gluon.dressing_l_inv_landau, gluon.thermal.polarization_glue_l_thermal_part_landau, gluon.thermal.polarization_quark_l_thermal_part_landau, re_glue_l, re_quark_l, toC_complex, toC_real, ofR_complex, ofR_real, new_gluon_mass]
  push_cast
  rw [hv]

theorem rd_qcd0_l (ig : Integrator) (k : Consts ℝ) (p m mq mu f0 : ℝ) (hm : m ≠ 0) (hq : mq ≠ 0) {om : ℝ} (ho : om ≠ 0) : qcd.thermal.gluon.dressing_l_inv_zero_temp_landau ig k om p m mq mu f0 = qcd.thermal.gluon.dressing_l_inv_zero_temp_landau ig k (om : ℂ) p m mq mu f0 := by
  have hs := freq_pos (p := p) ho hm
  have hv := vre_qcd k hs (div_ne_zero hq hm) f0
  push_cast at hv
  simp only [qcd.thermal.gluon.dressing_l_inv_zero_temp_landau, gluon.thermal.polarization_quark_l_thermal_part_zero_temp_landau, re_quark_l0, toC_complex, toC_real, ofR_complex, ofR_real, new_gluon_mass]
  push_cast
  rw [hv]

theorem rd_cfg_l (ig : Integrator) (k : Consts ℝ) (p beta mu f0 : ℝ) (nc : ℕ) (m : ℝ) (qs : List (ℕ × ℝ)) (hm : m ≠ 0) (hq : ∀ q ∈ qs, q.2 ≠ 0) {om : ℝ} (ho : om ≠ 0) : qcd.thermal.gluon.dressing_l_inv_landau_w_field_config ig k om p beta mu f0 (FieldConfig.new nc m qs) = qcd.thermal.gluon.dressing_l_inv_landau_w_field_config ig k (om : ℂ) p beta mu f0 (FieldConfig.new nc m qs) := by
  have hs := freq_pos (p := p) ho hm
  have hv := vre_config k hs f0 nc hm qs hq
  push_cast at hv
  simp only [qcd.thermal.gluon.dressing_l_inv_landau_w_field_config, gluon.thermal.polarization_glue_l_thermal_part_landau, gluon.thermal.polarization_quark_l_thermal_part_landau, re_glue_l, re_quark_l, toC_complex, toC_real, ofR_complex, ofR_real, new_gluon_mass]
  push_cast
  rw [hv]

theorem rd_cfg0_l (ig : Integrator) (k : Consts ℝ) (p mu f0 : ℝ) (nc : ℕ) (m : ℝ) (qs : List (ℕ × ℝ)) (hm : m ≠ 0) (hq : ∀ q ∈ qs, q.2 ≠ 0) {om : ℝ} (ho : om ≠ 0) : qcd.thermal.gluon.dressing_l_inv_zero_temp_landau_w_field_config ig k om p mu f0 (FieldConfig.new nc m qs) = qcd.thermal.gluon.dressing_l_inv_zero_temp_landau_w_field_config ig k (om : ℂ) p mu f0 (FieldConfig.new nc m qs) := by
  have hs := freq_pos (p := p) ho hm
  have hv := vre_config k hs f0 nc hm qs hq
  push_cast at hv
  simp only [qcd.thermal.gluon.dressing_l_inv_zero_temp_landau_w_field_config, gluon.thermal.polarization_quark_l_thermal_part_zero_temp_landau, re_quark_l0, toC_complex, toC_real, ofR_complex, ofR_real, new_gluon_mass]
  push_cast
  rw [hv]

theorem rd_ym_t (ig : Integrator) (k : Consts ℝ) (p m beta f0 : ℝ) (hm : m ≠ 0) {om : ℝ} (ho : om ≠ 0) : ym.thermal.gluon.dressing_t_inv_landau ig k om p m beta f0 = ym.thermal.gluon.dressing_t_inv_landau ig k (om : ℂ) p m beta f0 := by
  have hs := freq_pos (p := p) ho hm
  have hv := vre_ym hs f0
  push_cast at hv
  simp only [ym.thermal.gluon.dressing_t_inv_landau, gluon.thermal.polarization_glue_t_thermal_part_landau, re_glue_t, toC_complex, toC_real, ofR_complex, ofR_real, new_gluon_mass]
  push_cast
  rw [hv]

theorem rd_qcd_t (ig : Integrator) (k : Consts ℝ) (p m mq beta mu f0 : ℝ) (hm : m ≠ 0) (hq : mq ≠ 0) {om : ℝ} (ho : om ≠ 0) : qcd.thermal.gluon.dressing_t_inv_landau ig k om p m mq beta mu f0 = qcd.thermal.gluon.dressing_t_inv_landau ig k (om : ℂ) p m mq beta mu f0 := by
  have hs := freq_pos (p := p) ho hm
  have hv := vre_qcd k hs (div_ne_zero hq hm) f0
  push_cast at hv
  simp only [qcd.thermal.gluon.dressing_t_inv_landau, gluon.thermal.polarization_glue_t_thermal_part_landau, gluon.thermal.polarization_quark_t_thermal_part_landau, re_glue_t, re_quark_t, toC_complex, toC_real, ofR_complex, ofR_real, new_gluon_mass]
  push_cast
  rw [hv]

theorem rd_qcd0_t (ig : Integrator) (k : Consts ℝ) (p m mq mu f0 : ℝ) (hm : m ≠ 0) (hq : mq ≠ 0) {om : ℝ} (ho : om ≠ 0) : qcd.thermal.gluon.dressing_t_inv_zero_temp_landau ig k om p m mq mu f0 = qcd.thermal.gluon.dressing_t_inv_zero_temp_landau ig k (om : ℂ) p m mq mu f0 := by
  have hs := freq_pos (p := p) ho hm
  have hv := vre_qcd k hs (div_ne_zero hq hm) f0
  push_cast at hv
  simp only [qcd.thermal.gluon.dressing_t_inv_zero_temp_landau, gluon.thermal.polarization_quark_t_thermal_part_zero_temp_landau, re_quark_t0, toC_complex, toC_real, ofR_complex, ofR_real, new_gluon_mass]
  push_cast
  rw [hv]

theorem rd_cfg_t (ig : Integrator) (k : Consts ℝ) (p beta mu f0 : ℝ) (nc : ℕ) (m : ℝ) (qs : List (ℕ × ℝ)) (hm : m ≠ 0) (hq : ∀ q ∈ qs, q.2 ≠ 0) {om : ℝ} (ho : om ≠ 0) : qcd.thermal.gluon.dressing_t_inv_landau_w_field_config ig k om p beta mu f0 (FieldConfig.new nc m qs) = qcd.thermal.gluon.dressing_t_inv_landau_w_field_config ig k (om : ℂ) p beta mu f0 (FieldConfig.new nc m qs) := by
  have hs := freq_pos (p := p) ho hm
  have hv := vre_config k hs f0 nc hm qs hq
  push_cast at hv
  simp only [qcd.thermal.gluon.dressing_t_inv_landau_w_field_config, gluon.thermal.polarization_glue_t_thermal_part_landau, gluon.thermal.polarization_quark_t_thermal_part_landau, re_glue_t, re_quark_t, toC_complex, toC_real, ofR_complex, ofR_real, new_gluon_mass]
  push_cast
  rw [hv]

theorem rd_cfg0_t (ig : Integrator) (k : Consts ℝ) (p mu f0 : ℝ) (nc : ℕ) (m : ℝ) (qs : List (ℕ × ℝ)) (hm : m ≠ 0) (hq : ∀ q ∈ qs, q.2 ≠ 0) {om : ℝ} (ho : om ≠ 0) : qcd.thermal.gluon.dressing_t_inv_zero_temp_landau_w_field_config ig k om p mu f0 (FieldConfig.new nc m qs) = qcd.thermal.gluon.dressing_t_inv_zero_temp_landau_w_field_config ig k (om : ℂ) p mu f0 (FieldConfig.new nc m qs) := by
  have hs := freq_pos (p := p) ho hm
  have hv := vre_config k hs f0 nc hm qs hq
  push_cast at hv
  simp only [qcd.thermal.gluon.dressing_t_inv_zero_temp_landau_w_field_config, gluon.thermal.polarization_quark_t_thermal_part_zero_temp_landau, re_quark_t0, toC_complex, toC_real, ofR_complex, ofR_real, new_gluon_mass]
  push_cast
  rw [hv]

theorem rd_zm_ym_ghost (ig : Integrator) (k : Consts ℝ) (m beta f0 : ℝ) (hm : m ≠ 0) {om : ℝ} (ho : om ≠ 0) : ym.thermal.zero_momentum.ghost.dressing_inv_landau ig k om m beta f0 = ym.thermal.zero_momentum.ghost.dressing_inv_landau ig k (om : ℂ) m beta f0 := by
  have hs := freq_pos0 ho hm
  have hv := vre_ghost hs f0
  push_cast at hv
  simp only [ym.thermal.zero_momentum.ghost.dressing_inv_landau, ghost.thermal.zero_momentum.self_energy_thermal_part_landau, re_zm_ghost, toC_complex, toC_real, ofR_complex, ofR_real, new_gluon_mass]
  push_cast
  rw [hv]

theorem rd_zm_ym_l (ig : Integrator) (k : Consts ℝ) (m beta f0 : ℝ) (hm : m ≠ 0) {om : ℝ} (ho : om ≠ 0) : ym.thermal.zero_momentum.gluon.dressing_l_inv_landau ig k om m beta f0 = ym.thermal.zero_momentum.gluon.dressing_l_inv_landau ig k (om : ℂ) m beta f0 := by
  have hs := freq_pos0 ho hm
  have hv := vre_ym hs f0
  push_cast at hv
  simp only [ym.thermal.zero_momentum.gluon.dressing_l_inv_landau, gluon.thermal.zero_momentum.polarization_glue_l_thermal_part_landau, re_zm_glue_l, toC_complex, toC_real, ofR_complex, ofR_real, new_gluon_mass]
  push_cast
  rw [hv]

theorem rd_zm_qcd_l (ig : Integrator) (k : Consts ℝ) (m mq beta mu f0 : ℝ) (hm : m ≠ 0) (hq : mq ≠ 0) {om : ℝ} (ho : om ≠ 0) : qcd.thermal.zero_momentum.gluon.dressing_l_inv_landau ig k om m mq beta mu f0 = qcd.thermal.zero_momentum.gluon.dressing_l_inv_landau ig k (om : ℂ) m mq beta mu f0 := by
  have hs := freq_pos0 ho hm
  have hv := vre_qcd k hs (div_ne_zero hq hm) f0
  push_cast at hv
  simp only [qcd.thermal.zero_momentum.gluon.dressing_l_inv_landau, gluon.thermal.zero_momentum.polarization_glue_l_thermal_part_landau, gluon.thermal.zero_momentum.polarization_quark_l_thermal_part_landau, re_zm_glue_l, re_zm_quark_l, toC_complex, toC_real, ofR_complex, ofR_real, new_gluon_mass]
  push_cast
  rw [hv]

theorem rd_zm_qcd0_l (ig : Integrator) (k : Consts ℝ) (m mq mu f0 : ℝ) (hm : m ≠ 0) (hq : mq ≠ 0) {om : ℝ} (ho : om ≠ 0) : qcd.thermal.zero_momentum.gluon.dressing_l_inv_zero_temp_landau ig k om m mq mu f0 = qcd.thermal.zero_momentum.gluon.dressing_l_inv_zero_temp_landau ig k (om : ℂ) m mq mu f0 := by
  have hs := freq_pos0 ho hm
  have hv := vre_qcd k hs (div_ne_zero hq hm) f0
  push_cast at hv
  simp only [qcd.thermal.zero_momentum.gluon.dressing_l_inv_zero_temp_landau, gluon.thermal.zero_momentum.polarization_quark_l_thermal_part_zero_temp_landau, re_zm_quark_l0, toC_complex, toC_real, ofR_complex, ofR_real, new_gluon_mass]
  push_cast
  rw [hv]

theorem rd_zm_cfg_l (ig : Integrator) (k : Consts ℝ) (beta mu f0 : ℝ) (nc : ℕ) (m : ℝ) (qs : List (ℕ × ℝ)) (hm : m ≠ 0) (hq : ∀ q ∈ qs, q.2 ≠ 0) {om : ℝ} (ho : om ≠ 0) : qcd.thermal.zero_momentum.gluon.dressing_l_inv_landau_w_field_config ig k om beta mu f0 (FieldConfig.new nc m qs) = qcd.thermal.zero_momentum.gluon.dressing_l_inv_landau_w_field_config ig k (om : ℂ) beta mu f0 (FieldConfig.new nc m qs) := by
  have hs := freq_pos0 ho hm
  have hv := vre_config k hs f0 nc hm qs hq
  push_cast at hv
  simp only [qcd.thermal.zero_momentum.gluon.dressing_l_inv_landau_w_field_config, gluon.thermal.zero_momentum.polarization_glue_l_thermal_part_landau, gluon.thermal.zero_momentum.polarization_quark_l_thermal_part_landau, re_zm_glue_l, re_zm_quark_l, toC_complex, toC_real, ofR_complex, ofR_real, new_gluon_mass]
  push_cast
  rw [hv]

theorem rd_zm_cfg0_l (ig : Integrator) (k : Consts ℝ) (mu f0 : ℝ) (nc : ℕ) (m : ℝ) (qs : List (ℕ × ℝ)) (hm : m ≠ 0) (hq : ∀ q ∈ qs, q.2 ≠ 0) {om : ℝ} (ho : om ≠ 0) : qcd.thermal.zero_momentum.gluon.dressing_l_inv_zero_temp_landau_w_field_config ig k om mu f0 (FieldConfig.new nc m qs) = qcd.thermal.zero_momentum.gluon.dressing_l_inv_zero_temp_landau_w_field_config ig k (om : ℂ) mu f0 (FieldConfig.new nc m qs) := by
  have hs := freq_pos0 ho hm
  have hv := vre_config k hs f0 nc hm qs hq
  push_cast at hv
  simp only [qcd.thermal.zero_momentum.gluon.dressing_l_inv_zero_temp_landau_w_field_config, gluon.thermal.zero_momentum.polarization_quark_l_thermal_part_zero_temp_landau, re_zm_quark_l0, toC_complex, toC_real, ofR_complex, ofR_real, new_gluon_mass]
  push_cast
  rw [hv]

theorem rd_zm_ym_t (ig : Integrator) (k : Consts ℝ) (m beta f0 : ℝ) (hm : m ≠ 0) {om : ℝ} (ho : om ≠ 0) : ym.thermal.zero_momentum.gluon.dressing_t_inv_landau ig k om m beta f0 = ym.thermal.zero_momentum.gluon.dressing_t_inv_landau ig k (om : ℂ) m beta f0 := by
  have hs := freq_pos0 ho hm
  have hv := vre_ym hs f0
  push_cast at hv
  simp only [ym.thermal.zero_momentum.gluon.dressing_t_inv_landau, ym.thermal.zero_momentum.gluon.dressing_l_inv_landau, gluon.thermal.zero_momentum.polarization_glue_l_thermal_part_landau, re_zm_glue_l, toC_complex, toC_real, ofR_complex, ofR_real, new_gluon_mass]
  push_cast
  rw [hv]

theorem rd_zm_qcd_t (ig : Integrator) (k : Consts ℝ) (m mq beta mu f0 : ℝ) (hm : m ≠ 0) (hq : mq ≠ 0) {om : ℝ} (ho : om ≠ 0) : qcd.thermal.zero_momentum.gluon.dressing_t_inv_landau ig k om m mq beta mu f0 = qcd.thermal.zero_momentum.gluon.dressing_t_inv_landau ig k (om : ℂ) m mq beta mu f0 := by
  have hs := freq_pos0 ho hm
  have hv := vre_qcd k hs (div_ne_zero hq hm) f0
  push_cast at hv
  simp only [qcd.thermal.zero_momentum.gluon.dressing_t_inv_landau, gluon.thermal.zero_momentum.polarization_glue_t_thermal_part_landau, gluon.thermal.zero_momentum.polarization_quark_t_thermal_part_landau, re_zm_glue_t, re_zm_quark_t, toC_complex, toC_real, ofR_complex, ofR_real, new_gluon_mass]
  push_cast
  rw [hv]

theorem rd_zm_qcd0_t (ig : Integrator) (k : Consts ℝ) (m mq mu f0 : ℝ) (hm : m ≠ 0) (hq : mq ≠ 0) {om : ℝ} (ho : om ≠ 0) : qcd.thermal.zero_momentum.gluon.dressing_t_inv_zero_temp_landau ig k om m mq mu f0 = qcd.thermal.zero_momentum.gluon.dressing_t_inv_zero_temp_landau ig k (om : ℂ) m mq mu f0 := by
  have hs := freq_pos0 ho hm
  have hv := vre_qcd k hs (div_ne_zero hq hm) f0
  push_cast at hv
  simp only [qcd.thermal.zero_momentum.gluon.dressing_t_inv_zero_temp_landau, gluon.thermal.zero_momentum.polarization_quark_t_thermal_part_zero_temp_landau, re_zm_quark_t0, toC_complex, toC_real, ofR_complex, ofR_real, new_gluon_mass]
  push_cast
  rw [hv]

theorem rd_zm_cfg_t (ig : Integrator) (k : Consts ℝ) (beta mu f0 : ℝ) (nc : ℕ) (m : ℝ) (qs : List (ℕ × ℝ)) (hm : m ≠ 0) (hq : ∀ q ∈ qs, q.2 ≠ 0) {om : ℝ} (ho : om ≠ 0) : qcd.thermal.zero_momentum.gluon.dressing_t_inv_landau_w_field_config ig k om beta mu f0 (FieldConfig.new nc m qs) = qcd.thermal.zero_momentum.gluon.dressing_t_inv_landau_w_field_config ig k (om : ℂ) beta mu f0 (FieldConfig.new nc m qs) := by
  have hs := freq_pos0 ho hm
  have hv := vre_config k hs f0 nc hm qs hq
  push_cast at hv
  simp only [qcd.thermal.zero_momentum.gluon.dressing_t_inv_landau_w_field_config, gluon.thermal.zero_momentum.polarization_glue_t_thermal_part_landau, gluon.thermal.zero_momentum.polarization_quark_t_thermal_part_landau, re_zm_glue_t, re_zm_quark_t, toC_complex, toC_real, ofR_complex, ofR_real, new_gluon_mass]
  push_cast
  rw [hv]

theorem rd_zm_cfg0_t (ig : Integrator) (k : Consts ℝ) (mu f0 : ℝ) (nc : ℕ) (m : ℝ) (qs : List (ℕ × ℝ)) (hm : m ≠ 0) (hq : ∀ q ∈ qs, q.2 ≠ 0) {om : ℝ} (ho : om ≠ 0) : qcd.thermal.zero_momentum.gluon.dressing_t_inv_zero_temp_landau_w_field_config ig k om mu f0 (FieldConfig.new nc m qs) = qcd.thermal.zero_momentum.gluon.dressing_t_inv_zero_temp_landau_w_field_config ig k (om : ℂ) mu f0 (FieldConfig.new nc m qs) := by
  have hs := freq_pos0 ho hm
  have hv := vre_config k hs f0 nc hm qs hq
  push_cast at hv
  simp only [qcd.thermal.zero_momentum.gluon.dressing_t_inv_zero_temp_landau_w_field_config, gluon.thermal.zero_momentum.polarization_quark_t_thermal_part_zero_temp_landau, re_zm_quark_t0, toC_complex, toC_real, ofR_complex, ofR_real, new_gluon_mass]
  push_cast
  rw [hv]

/-! ### The properties -/

theorem im_inv_zero {z : ℂ} (h : z.im = 0) : (z⁻¹).im = 0 := by rw [inv_im, h]; simp

theorem im_prop_zero {a z : ℂ} (ha : a.im = 0) (h : z.im = 0) : (a * z⁻¹).im = 0 := by rw [mul_im, ha, im_inv_zero h]; simp

/-- **C97** (values are real): Yang-Mills ghost and gluon. -/
theorem C97_real_ym {ig : Integrator} (hi : ig.Interior) (hc : ig.Conj) (k : Consts ℝ) (p m beta f0 : ℝ) (hm : m ≠ 0) (hb : 0 < beta) (om : ℝ) (ho : om ≠ 0) :
    (ym.thermal.ghost.dressing_inv_landau ig k om p m beta f0).im = 0 ∧
    (ym.thermal.ghost.dressing_landau ig k om p m beta f0).im = 0 ∧
    (ym.thermal.ghost.propagator_landau ig k om p m beta f0).im = 0 ∧
    (ym.thermal.gluon.dressing_l_inv_landau ig k om p m beta f0).im = 0 ∧
    (ym.thermal.gluon.dressing_l_landau ig k om p m beta f0).im = 0 ∧
    (ym.thermal.gluon.propagator_l_landau ig k om p m beta f0).im = 0 ∧
    (ym.thermal.gluon.dressing_t_inv_landau ig k om p m beta f0).im = 0 ∧
    (ym.thermal.gluon.dressing_t_landau ig k om p m beta f0).im = 0 ∧
    (ym.thermal.gluon.propagator_t_landau ig k om p m beta f0).im = 0 ∧
    (ym.thermal.zero_momentum.ghost.dressing_inv_landau ig k om m beta f0).im = 0 ∧
    (ym.thermal.zero_momentum.ghost.dressing_landau ig k om m beta f0).im = 0 ∧
    (ym.thermal.zero_momentum.ghost.propagator_landau ig k om m beta f0).im = 0 ∧
    (ym.thermal.zero_momentum.gluon.dressing_l_inv_landau ig k om m beta f0).im = 0 ∧
    (ym.thermal.zero_momentum.gluon.dressing_l_landau ig k om m beta f0).im = 0 ∧
    (ym.thermal.zero_momentum.gluon.propagator_l_landau ig k om m beta f0).im = 0 ∧
    (ym.thermal.zero_momentum.gluon.dressing_t_inv_landau ig k om m beta f0).im = 0 ∧
    (ym.thermal.zero_momentum.gluon.dressing_t_landau ig k om m beta f0).im = 0 ∧
    (ym.thermal.zero_momentum.gluon.propagator_t_landau ig k om m beta f0).im = 0 := by
  have hP := admissible_symmetric hi hc
  have iym_ghost : (ym.thermal.ghost.dressing_inv_landau ig k om p m beta f0).im = 0 := by
    rw [rd_ym_ghost ig k p m beta f0 hm ho]
    exact symmetric_real (dr_ym_ghost hP k p m beta f0 hm hb) ho
  have iym_l : (ym.thermal.gluon.dressing_l_inv_landau ig k om p m beta f0).im = 0 := by
    rw [rd_ym_l ig k p m beta f0 hm ho]
    exact symmetric_real (dr_ym_l hP k p m beta f0 hm hb) ho
  have iym_t : (ym.thermal.gluon.dressing_t_inv_landau ig k om p m beta f0).im = 0 := by
    rw [rd_ym_t ig k p m beta f0 hm ho]
    exact symmetric_real (dr_ym_t hP k p m beta f0 hm hb) ho
  have izm_ym_ghost : (ym.thermal.zero_momentum.ghost.dressing_inv_landau ig k om m beta f0).im = 0 := by
    rw [rd_zm_ym_ghost ig k m beta f0 hm ho]
    exact symmetric_real (dr_zm_ym_ghost hP k m beta f0 hm hb) ho
  have izm_ym_l : (ym.thermal.zero_momentum.gluon.dressing_l_inv_landau ig k om m beta f0).im = 0 := by
    rw [rd_zm_ym_l ig k m beta f0 hm ho]
    exact symmetric_real (dr_zm_ym_l hP k m beta f0 hm hb) ho
  have izm_ym_t : (ym.thermal.zero_momentum.gluon.dressing_t_inv_landau ig k om m beta f0).im = 0 := by
    rw [rd_zm_ym_t ig k m beta f0 hm ho]
    exact symmetric_real (dr_zm_ym_t hP k m beta f0 hm hb) ho
  exact ⟨iym_ghost,
    by rw [ym.thermal.ghost.dressing_landau]; exact im_inv_zero iym_ghost,
    by rw [ym.thermal.ghost.propagator_landau, ym.thermal.ghost.dressing_landau]; exact im_prop_zero (by simp [pow_two]) iym_ghost,
    iym_l,
    by rw [ym.thermal.gluon.dressing_l_landau]; exact im_inv_zero iym_l,
    by rw [ym.thermal.gluon.propagator_l_landau, ym.thermal.gluon.dressing_l_landau]; exact im_prop_zero (by simp [pow_two]) iym_l,
    iym_t,
    by rw [ym.thermal.gluon.dressing_t_landau]; exact im_inv_zero iym_t,
    by rw [ym.thermal.gluon.propagator_t_landau, ym.thermal.gluon.dressing_t_landau]; exact im_prop_zero (by simp [pow_two]) iym_t,
    izm_ym_ghost,
    by rw [ym.thermal.zero_momentum.ghost.dressing_landau, ofR_complex, ofReal_one, one_div]; exact im_inv_zero izm_ym_ghost,
    by rw [ym.thermal.zero_momentum.ghost.propagator_landau, ym.thermal.zero_momentum.ghost.dressing_landau, ofR_complex, ofReal_one, one_div]; exact im_prop_zero (by simp [pow_two]) izm_ym_ghost,
    izm_ym_l,
    by rw [ym.thermal.zero_momentum.gluon.dressing_l_landau, ofR_complex, ofReal_one, one_div]; exact im_inv_zero izm_ym_l,
    by rw [ym.thermal.zero_momentum.gluon.propagator_l_landau, ym.thermal.zero_momentum.gluon.dressing_l_landau, ofR_complex, ofReal_one, one_div]; exact im_prop_zero (by simp [pow_two]) izm_ym_l,
    izm_ym_t,
    by rw [ym.thermal.zero_momentum.gluon.dressing_t_landau, ofR_complex, ofReal_one, one_div]; exact im_inv_zero izm_ym_t,
    by rw [ym.thermal.zero_momentum.gluon.propagator_t_landau, ym.thermal.zero_momentum.gluon.dressing_t_landau, ofR_complex, ofReal_one, one_div]; exact im_prop_zero (by simp [pow_two]) izm_ym_t⟩

/-- **C97** (real and complex entry points): Yang-Mills ghost and gluon. -/
theorem C97_entry_points_ym (ig : Integrator) (k : Consts ℝ) (p m beta f0 : ℝ) (hm : m ≠ 0) (om : ℝ) (ho : om ≠ 0) :
    ym.thermal.ghost.dressing_inv_landau ig k om p m beta f0 = ym.thermal.ghost.dressing_inv_landau ig k (om : ℂ) p m beta f0 ∧
    ym.thermal.gluon.dressing_l_inv_landau ig k om p m beta f0 = ym.thermal.gluon.dressing_l_inv_landau ig k (om : ℂ) p m beta f0 ∧
    ym.thermal.gluon.dressing_l_landau ig k om p m beta f0 = ym.thermal.gluon.dressing_l_landau ig k (om : ℂ) p m beta f0 ∧
    ym.thermal.gluon.propagator_l_landau ig k om p m beta f0 = ym.thermal.gluon.propagator_l_landau ig k (om : ℂ) p m beta f0 ∧
    ym.thermal.gluon.dressing_t_inv_landau ig k om p m beta f0 = ym.thermal.gluon.dressing_t_inv_landau ig k (om : ℂ) p m beta f0 ∧
    ym.thermal.gluon.dressing_t_landau ig k om p m beta f0 = ym.thermal.gluon.dressing_t_landau ig k (om : ℂ) p m beta f0 ∧
    ym.thermal.gluon.propagator_t_landau ig k om p m beta f0 = ym.thermal.gluon.propagator_t_landau ig k (om : ℂ) p m beta f0 ∧
    ym.thermal.zero_momentum.ghost.dressing_inv_landau ig k om m beta f0 = ym.thermal.zero_momentum.ghost.dressing_inv_landau ig k (om : ℂ) m beta f0 ∧
    ym.thermal.zero_momentum.ghost.dressing_landau ig k om m beta f0 = ym.thermal.zero_momentum.ghost.dressing_landau ig k (om : ℂ) m beta f0 ∧
    ym.thermal.zero_momentum.ghost.propagator_landau ig k om m beta f0 = ym.thermal.zero_momentum.ghost.propagator_landau ig k (om : ℂ) m beta f0 ∧
    ym.thermal.zero_momentum.gluon.dressing_l_inv_landau ig k om m beta f0 = ym.thermal.zero_momentum.gluon.dressing_l_inv_landau ig k (om : ℂ) m beta f0 ∧
    ym.thermal.zero_momentum.gluon.dressing_l_landau ig k om m beta f0 = ym.thermal.zero_momentum.gluon.dressing_l_landau ig k (om : ℂ) m beta f0 ∧
    ym.thermal.zero_momentum.gluon.propagator_l_landau ig k om m beta f0 = ym.thermal.zero_momentum.gluon.propagator_l_landau ig k (om : ℂ) m beta f0 ∧
    ym.thermal.zero_momentum.gluon.dressing_t_inv_landau ig k om m beta f0 = ym.thermal.zero_momentum.gluon.dressing_t_inv_landau ig k (om : ℂ) m beta f0 ∧
    ym.thermal.zero_momentum.gluon.dressing_t_landau ig k om m beta f0 = ym.thermal.zero_momentum.gluon.dressing_t_landau ig k (om : ℂ) m beta f0 ∧
    ym.thermal.zero_momentum.gluon.propagator_t_landau ig k om m beta f0 = ym.thermal.zero_momentum.gluon.propagator_t_landau ig k (om : ℂ) m beta f0 :=
  ⟨rd_ym_ghost ig k p m beta f0 hm ho,
   rd_ym_l ig k p m beta f0 hm ho,
   by simp only [ym.thermal.gluon.dressing_l_landau, rd_ym_l ig k p m beta f0 hm ho],
   by simp only [ym.thermal.gluon.propagator_l_landau, ym.thermal.gluon.dressing_l_landau, rd_ym_l ig k p m beta f0 hm ho, toC_complex, toC_real, ofR_complex, ofR_real]; push_cast; rfl,
   rd_ym_t ig k p m beta f0 hm ho,
   by simp only [ym.thermal.gluon.dressing_t_landau, rd_ym_t ig k p m beta f0 hm ho],
   by simp only [ym.thermal.gluon.propagator_t_landau, ym.thermal.gluon.dressing_t_landau, rd_ym_t ig k p m beta f0 hm ho, toC_complex, toC_real, ofR_complex, ofR_real]; push_cast; rfl,
   rd_zm_ym_ghost ig k m beta f0 hm ho,
   by simp only [ym.thermal.zero_momentum.ghost.dressing_landau, rd_zm_ym_ghost ig k m beta f0 hm ho],
   by simp only [ym.thermal.zero_momentum.ghost.propagator_landau, ym.thermal.zero_momentum.ghost.dressing_landau, rd_zm_ym_ghost ig k m beta f0 hm ho, toC_complex, toC_real, ofR_complex, ofR_real]; push_cast; rfl,
   rd_zm_ym_l ig k m beta f0 hm ho,
   by simp only [ym.thermal.zero_momentum.gluon.dressing_l_landau, rd_zm_ym_l ig k m beta f0 hm ho],
   by simp only [ym.thermal.zero_momentum.gluon.propagator_l_landau, ym.thermal.zero_momentum.gluon.dressing_l_landau, rd_zm_ym_l ig k m beta f0 hm ho, toC_complex, toC_real, ofR_complex, ofR_real]; push_cast; rfl,
   rd_zm_ym_t ig k m beta f0 hm ho,
   by simp only [ym.thermal.zero_momentum.gluon.dressing_t_landau, rd_zm_ym_t ig k m beta f0 hm ho],
   by simp only [ym.thermal.zero_momentum.gluon.propagator_t_landau, ym.thermal.zero_momentum.gluon.dressing_t_landau, rd_zm_ym_t ig k m beta f0 hm ho, toC_complex, toC_real, ofR_complex, ofR_real]; push_cast; rfl⟩

/-- **C97** (values are real): QCD gluon, one quark mass. -/
theorem C97_real_qcd {ig : Integrator} (hi : ig.Interior) (hc : ig.Conj) (k : Consts ℝ) (p m mq beta mu f0 : ℝ) (hm : m ≠ 0) (hq : mq ≠ 0) (hb : 0 < beta) (om : ℝ) (ho : om ≠ 0) :
    (qcd.thermal.gluon.dressing_l_inv_landau ig k om p m mq beta mu f0).im = 0 ∧
    (qcd.thermal.gluon.dressing_l_landau ig k om p m mq beta mu f0).im = 0 ∧
    (qcd.thermal.gluon.propagator_l_landau ig k om p m mq beta mu f0).im = 0 ∧
    (qcd.thermal.gluon.dressing_t_inv_landau ig k om p m mq beta mu f0).im = 0 ∧
    (qcd.thermal.gluon.dressing_t_landau ig k om p m mq beta mu f0).im = 0 ∧
    (qcd.thermal.gluon.propagator_t_landau ig k om p m mq beta mu f0).im = 0 ∧
    (qcd.thermal.zero_momentum.gluon.dressing_l_inv_landau ig k om m mq beta mu f0).im = 0 ∧
    (qcd.thermal.zero_momentum.gluon.dressing_l_landau ig k om m mq beta mu f0).im = 0 ∧
    (qcd.thermal.zero_momentum.gluon.propagator_l_landau ig k om m mq beta mu f0).im = 0 ∧
    (qcd.thermal.zero_momentum.gluon.dressing_t_inv_landau ig k om m mq beta mu f0).im = 0 ∧
    (qcd.thermal.zero_momentum.gluon.dressing_t_landau ig k om m mq beta mu f0).im = 0 ∧
    (qcd.thermal.zero_momentum.gluon.propagator_t_landau ig k om m mq beta mu f0).im = 0 := by
  have hP := admissible_symmetric hi hc
  have iqcd_l : (qcd.thermal.gluon.dressing_l_inv_landau ig k om p m mq beta mu f0).im = 0 := by
    rw [rd_qcd_l ig k p m mq beta mu f0 hm hq ho]
    exact symmetric_real (dr_qcd_l hP k p m mq beta mu f0 hm hq hb) ho
  have iqcd_t : (qcd.thermal.gluon.dressing_t_inv_landau ig k om p m mq beta mu f0).im = 0 := by
    rw [rd_qcd_t ig k p m mq beta mu f0 hm hq ho]
    exact symmetric_real (dr_qcd_t hP k p m mq beta mu f0 hm hq hb) ho
  have izm_qcd_l : (qcd.thermal.zero_momentum.gluon.dressing_l_inv_landau ig k om m mq beta mu f0).im = 0 := by
    rw [rd_zm_qcd_l ig k m mq beta mu f0 hm hq ho]
    exact symmetric_real (dr_zm_qcd_l hP k m mq beta mu f0 hm hq hb) ho
  have izm_qcd_t : (qcd.thermal.zero_momentum.gluon.dressing_t_inv_landau ig k om m mq beta mu f0).im = 0 := by
    rw [rd_zm_qcd_t ig k m mq beta mu f0 hm hq ho]
    exact symmetric_real (dr_zm_qcd_t hP k m mq beta mu f0 hm hq hb) ho
  exact ⟨iqcd_l,
    by rw [qcd.thermal.gluon.dressing_l_landau]; exact im_inv_zero iqcd_l,
    by rw [qcd.thermal.gluon.propagator_l_landau, qcd.thermal.gluon.dressing_l_landau]; exact im_prop_zero (by simp [pow_two]) iqcd_l,
    iqcd_t,
    by rw [qcd.thermal.gluon.dressing_t_landau]; exact im_inv_zero iqcd_t,
    by rw [qcd.thermal.gluon.propagator_t_landau, qcd.thermal.gluon.dressing_t_landau]; exact im_prop_zero (by simp [pow_two]) iqcd_t,
    izm_qcd_l,
    by rw [qcd.thermal.zero_momentum.gluon.dressing_l_landau]; exact im_inv_zero izm_qcd_l,
    by rw [qcd.thermal.zero_momentum.gluon.propagator_l_landau, qcd.thermal.zero_momentum.gluon.dressing_l_landau]; exact im_prop_zero (by simp [pow_two]) izm_qcd_l,
    izm_qcd_t,
    by rw [qcd.thermal.zero_momentum.gluon.dressing_t_landau]; exact im_inv_zero izm_qcd_t,
    by rw [qcd.thermal.zero_momentum.gluon.propagator_t_landau, qcd.thermal.zero_momentum.gluon.dressing_t_landau]; exact im_prop_zero (by simp [pow_two]) izm_qcd_t⟩

/-- **C97** (real and complex entry points): QCD gluon, one quark mass. -/
theorem C97_entry_points_qcd (ig : Integrator) (k : Consts ℝ) (p m mq beta mu f0 : ℝ) (hm : m ≠ 0) (hq : mq ≠ 0) (om : ℝ) (ho : om ≠ 0) :
    qcd.thermal.gluon.dressing_l_inv_landau ig k om p m mq beta mu f0 = qcd.thermal.gluon.dressing_l_inv_landau ig k (om : ℂ) p m mq beta mu f0 ∧
    qcd.thermal.gluon.dressing_l_landau ig k om p m mq beta mu f0 = qcd.thermal.gluon.dressing_l_landau ig k (om : ℂ) p m mq beta mu f0 ∧
    qcd.thermal.gluon.propagator_l_landau ig k om p m mq beta mu f0 = qcd.thermal.gluon.propagator_l_landau ig k (om : ℂ) p m mq beta mu f0 ∧
    qcd.thermal.gluon.dressing_t_inv_landau ig k om p m mq beta mu f0 = qcd.thermal.gluon.dressing_t_inv_landau ig k (om : ℂ) p m mq beta mu f0 ∧
    qcd.thermal.gluon.dressing_t_landau ig k om p m mq beta mu f0 = qcd.thermal.gluon.dressing_t_landau ig k (om : ℂ) p m mq beta mu f0 ∧
    qcd.thermal.gluon.propagator_t_landau ig k om p m mq beta mu f0 = qcd.thermal.gluon.propagator_t_landau ig k (om : ℂ) p m mq beta mu f0 ∧
    qcd.thermal.zero_momentum.gluon.dressing_l_inv_landau ig k om m mq beta mu f0 = qcd.thermal.zero_momentum.gluon.dressing_l_inv_landau ig k (om : ℂ) m mq beta mu f0 ∧
    qcd.thermal.zero_momentum.gluon.dressing_l_landau ig k om m mq beta mu f0 = qcd.thermal.zero_momentum.gluon.dressing_l_landau ig k (om : ℂ) m mq beta mu f0 ∧
    qcd.thermal.zero_momentum.gluon.propagator_l_landau ig k om m mq beta mu f0 = qcd.thermal.zero_momentum.gluon.propagator_l_landau ig k (om : ℂ) m mq beta mu f0 ∧
    qcd.thermal.zero_momentum.gluon.dressing_t_inv_landau ig k om m mq beta mu f0 = qcd.thermal.zero_momentum.gluon.dressing_t_inv_landau ig k (om : ℂ) m mq beta mu f0 ∧
    qcd.thermal.zero_momentum.gluon.dressing_t_landau ig k om m mq beta mu f0 = qcd.thermal.zero_momentum.gluon.dressing_t_landau ig k (om : ℂ) m mq beta mu f0 ∧
    qcd.thermal.zero_momentum.gluon.propagator_t_landau ig k om m mq beta mu f0 = qcd.thermal.zero_momentum.gluon.propagator_t_landau ig k (om : ℂ) m mq beta mu f0 :=
  ⟨rd_qcd_l ig k p m mq beta mu f0 hm hq ho,
   by simp only [qcd.thermal.gluon.dressing_l_landau, rd_qcd_l ig k p m mq beta mu f0 hm hq ho],
   by simp only [qcd.thermal.gluon.propagator_l_landau, qcd.thermal.gluon.dressing_l_landau, rd_qcd_l ig k p m mq beta mu f0 hm hq ho, toC_complex, toC_real, ofR_complex, ofR_real]; push_cast; rfl,
   rd_qcd_t ig k p m mq beta mu f0 hm hq ho,
   by simp only [qcd.thermal.gluon.dressing_t_landau, rd_qcd_t ig k p m mq beta mu f0 hm hq ho],
   by simp only [qcd.thermal.gluon.propagator_t_landau, qcd.thermal.gluon.dressing_t_landau, rd_qcd_t ig k p m mq beta mu f0 hm hq ho, toC_complex, toC_real, ofR_complex, ofR_real]; push_cast; rfl,
   rd_zm_qcd_l ig k m mq beta mu f0 hm hq ho,
   by simp only [qcd.thermal.zero_momentum.gluon.dressing_l_landau, rd_zm_qcd_l ig k m mq beta mu f0 hm hq ho],
   by simp only [qcd.thermal.zero_momentum.gluon.propagator_l_landau, qcd.thermal.zero_momentum.gluon.dressing_l_landau, rd_zm_qcd_l ig k m mq beta mu f0 hm hq ho, toC_complex, toC_real, ofR_complex, ofR_real]; push_cast; rfl,
   rd_zm_qcd_t ig k m mq beta mu f0 hm hq ho,
   by simp only [qcd.thermal.zero_momentum.gluon.dressing_t_landau, rd_zm_qcd_t ig k m mq beta mu f0 hm hq ho],
   by simp only [qcd.thermal.zero_momentum.gluon.propagator_t_landau, qcd.thermal.zero_momentum.gluon.dressing_t_landau, rd_zm_qcd_t ig k m mq beta mu f0 hm hq ho, toC_complex, toC_real, ofR_complex, ofR_real]; push_cast; rfl⟩

/-- **C97** (values are real): QCD gluon at zero temperature, one quark mass. -/
theorem C97_real_qcd_zero_temp {ig : Integrator} (hi : ig.Interior) (hc : ig.Conj) (k : Consts ℝ) (p m mq mu f0 : ℝ) (hm : m ≠ 0) (hq : mq ≠ 0) (om : ℝ) (ho : om ≠ 0) :
    (qcd.thermal.gluon.dressing_l_inv_zero_temp_landau ig k om p m mq mu f0).im = 0 ∧
    (qcd.thermal.gluon.dressing_l_zero_temp_landau ig k om p m mq mu f0).im = 0 ∧
    (qcd.thermal.gluon.propagator_l_zero_temp_landau ig k om p m mq mu f0).im = 0 ∧
    (qcd.thermal.gluon.dressing_t_inv_zero_temp_landau ig k om p m mq mu f0).im = 0 ∧
    (qcd.thermal.gluon.dressing_t_zero_temp_landau ig k om p m mq mu f0).im = 0 ∧
    (qcd.thermal.gluon.propagator_t_zero_temp_landau ig k om p m mq mu f0).im = 0 ∧
    (qcd.thermal.zero_momentum.gluon.dressing_l_inv_zero_temp_landau ig k om m mq mu f0).im = 0 ∧
    (qcd.thermal.zero_momentum.gluon.dressing_l_zero_temp_landau ig k om m mq mu f0).im = 0 ∧
    (qcd.thermal.zero_momentum.gluon.propagator_l_zero_temp_landau ig k om m mq mu f0).im = 0 ∧
    (qcd.thermal.zero_momentum.gluon.dressing_t_inv_zero_temp_landau ig k om m mq mu f0).im = 0 ∧
    (qcd.thermal.zero_momentum.gluon.dressing_t_zero_temp_landau ig k om m mq mu f0).im = 0 ∧
    (qcd.thermal.zero_momentum.gluon.propagator_t_zero_temp_landau ig k om m mq mu f0).im = 0 := by
  have hP := admissible_symmetric hi hc
  have iqcd0_l : (qcd.thermal.gluon.dressing_l_inv_zero_temp_landau ig k om p m mq mu f0).im = 0 := by
    rw [rd_qcd0_l ig k p m mq mu f0 hm hq ho]
    exact symmetric_real (dr_qcd0_l hP k p m mq mu f0 hm hq) ho
  have iqcd0_t : (qcd.thermal.gluon.dressing_t_inv_zero_temp_landau ig k om p m mq mu f0).im = 0 := by
    rw [rd_qcd0_t ig k p m mq mu f0 hm hq ho]
    exact symmetric_real (dr_qcd0_t hP k p m mq mu f0 hm hq) ho
  have izm_qcd0_l : (qcd.thermal.zero_momentum.gluon.dressing_l_inv_zero_temp_landau ig k om m mq mu f0).im = 0 := by
    rw [rd_zm_qcd0_l ig k m mq mu f0 hm hq ho]
    exact symmetric_real (dr_zm_qcd0_l hP k m mq mu f0 hm hq) ho
  have izm_qcd0_t : (qcd.thermal.zero_momentum.gluon.dressing_t_inv_zero_temp_landau ig k om m mq mu f0).im = 0 := by
    rw [rd_zm_qcd0_t ig k m mq mu f0 hm hq ho]
    exact symmetric_real (dr_zm_qcd0_t hP k m mq mu f0 hm hq) ho
  exact ⟨iqcd0_l,
    by rw [qcd.thermal.gluon.dressing_l_zero_temp_landau]; exact im_inv_zero iqcd0_l,
    by rw [qcd.thermal.gluon.propagator_l_zero_temp_landau, qcd.thermal.gluon.dressing_l_zero_temp_landau]; exact im_prop_zero (by simp [pow_two]) iqcd0_l,
    iqcd0_t,
    by rw [qcd.thermal.gluon.dressing_t_zero_temp_landau]; exact im_inv_zero iqcd0_t,
    by rw [qcd.thermal.gluon.propagator_t_zero_temp_landau, qcd.thermal.gluon.dressing_t_zero_temp_landau]; exact im_prop_zero (by simp [pow_two]) iqcd0_t,
    izm_qcd0_l,
    by rw [qcd.thermal.zero_momentum.gluon.dressing_l_zero_temp_landau]; exact im_inv_zero izm_qcd0_l,
    by rw [qcd.thermal.zero_momentum.gluon.propagator_l_zero_temp_landau, qcd.thermal.zero_momentum.gluon.dressing_l_zero_temp_landau]; exact im_prop_zero (by simp [pow_two]) izm_qcd0_l,
    izm_qcd0_t,
    by rw [qcd.thermal.zero_momentum.gluon.dressing_t_zero_temp_landau]; exact im_inv_zero izm_qcd0_t,
    by rw [qcd.thermal.zero_momentum.gluon.propagator_t_zero_temp_landau, qcd.thermal.zero_momentum.gluon.dressing_t_zero_temp_landau]; exact im_prop_zero (by simp [pow_two]) izm_qcd0_t⟩

/-- **C97** (real and complex entry points): QCD gluon at zero temperature, one quark mass. -/
theorem C97_entry_points_qcd_zero_temp (ig : Integrator) (k : Consts ℝ) (p m mq mu f0 : ℝ) (hm : m ≠ 0) (hq : mq ≠ 0) (om : ℝ) (ho : om ≠ 0) :
    qcd.thermal.gluon.dressing_l_inv_zero_temp_landau ig k om p m mq mu f0 = qcd.thermal.gluon.dressing_l_inv_zero_temp_landau ig k (om : ℂ) p m mq mu f0 ∧
    qcd.thermal.gluon.dressing_l_zero_temp_landau ig k om p m mq mu f0 = qcd.thermal.gluon.dressing_l_zero_temp_landau ig k (om : ℂ) p m mq mu f0 ∧
    qcd.thermal.gluon.propagator_l_zero_temp_landau ig k om p m mq mu f0 = qcd.thermal.gluon.propagator_l_zero_temp_landau ig k (om : ℂ) p m mq mu f0 ∧
    qcd.thermal.gluon.dressing_t_inv_zero_temp_landau ig k om p m mq mu f0 = qcd.thermal.gluon.dressing_t_inv_zero_temp_landau ig k (om : ℂ) p m mq mu f0 ∧
    qcd.thermal.gluon.dressing_t_zero_temp_landau ig k om p m mq mu f0 = qcd.thermal.gluon.dressing_t_zero_temp_landau ig k (om : ℂ) p m mq mu f0 ∧
    qcd.thermal.gluon.propagator_t_zero_temp_landau ig k om p m mq mu f0 = qcd.thermal.gluon.propagator_t_zero_temp_landau ig k (om : ℂ) p m mq mu f0 ∧
    qcd.thermal.zero_momentum.gluon.dressing_l_inv_zero_temp_landau ig k om m mq mu f0 = qcd.thermal.zero_momentum.gluon.dressing_l_inv_zero_temp_landau ig k (om : ℂ) m mq mu f0 ∧
    qcd.thermal.zero_momentum.gluon.dressing_l_zero_temp_landau ig k om m mq mu f0 = qcd.thermal.zero_momentum.gluon.dressing_l_zero_temp_landau ig k (om : ℂ) m mq mu f0 ∧
    qcd.thermal.zero_momentum.gluon.propagator_l_zero_temp_landau ig k om m mq mu f0 = qcd.thermal.zero_momentum.gluon.propagator_l_zero_temp_landau ig k (om : ℂ) m mq mu f0 ∧
    qcd.thermal.zero_momentum.gluon.dressing_t_inv_zero_temp_landau ig k om m mq mu f0 = qcd.thermal.zero_momentum.gluon.dressing_t_inv_zero_temp_landau ig k (om : ℂ) m mq mu f0 ∧
    qcd.thermal.zero_momentum.gluon.dressing_t_zero_temp_landau ig k om m mq mu f0 = qcd.thermal.zero_momentum.gluon.dressing_t_zero_temp_landau ig k (om : ℂ) m mq mu f0 ∧
    qcd.thermal.zero_momentum.gluon.propagator_t_zero_temp_landau ig k om m mq mu f0 = qcd.thermal.zero_momentum.gluon.propagator_t_zero_temp_landau ig k (om : ℂ) m mq mu f0 :=
  ⟨rd_qcd0_l ig k p m mq mu f0 hm hq ho,
   by simp only [qcd.thermal.gluon.dressing_l_zero_temp_landau, rd_qcd0_l ig k p m mq mu f0 hm hq ho],
   by simp only [qcd.thermal.gluon.propagator_l_zero_temp_landau, qcd.thermal.gluon.dressing_l_zero_temp_landau, rd_qcd0_l ig k p m mq mu f0 hm hq ho, toC_complex, toC_real, ofR_complex, ofR_real]; push_cast; rfl,
   rd_qcd0_t ig k p m mq mu f0 hm hq ho,
   by simp only [qcd.thermal.gluon.dressing_t_zero_temp_landau, rd_qcd0_t ig k p m mq mu f0 hm hq ho],
   by simp only [qcd.thermal.gluon.propagator_t_zero_temp_landau, qcd.thermal.gluon.dressing_t_zero_temp_landau, rd_qcd0_t ig k p m mq mu f0 hm hq ho, toC_complex, toC_real, ofR_complex, ofR_real]; push_cast; rfl,
   rd_zm_qcd0_l ig k m mq mu f0 hm hq ho,
   by simp only [qcd.thermal.zero_momentum.gluon.dressing_l_zero_temp_landau, rd_zm_qcd0_l ig k m mq mu f0 hm hq ho],
   by simp only [qcd.thermal.zero_momentum.gluon.propagator_l_zero_temp_landau, qcd.thermal.zero_momentum.gluon.dressing_l_zero_temp_landau, rd_zm_qcd0_l ig k m mq mu f0 hm hq ho, toC_complex, toC_real, ofR_complex, ofR_real]; push_cast; rfl,
   rd_zm_qcd0_t ig k m mq mu f0 hm hq ho,
   by simp only [qcd.thermal.zero_momentum.gluon.dressing_t_zero_temp_landau, rd_zm_qcd0_t ig k m mq mu f0 hm hq ho],
   by simp only [qcd.thermal.zero_momentum.gluon.propagator_t_zero_temp_landau, qcd.thermal.zero_momentum.gluon.dressing_t_zero_temp_landau, rd_zm_qcd0_t ig k m mq mu f0 hm hq ho, toC_complex, toC_real, ofR_complex, ofR_real]; push_cast; rfl⟩

/-- **C97** (values are real): QCD gluon, any field configuration. -/
theorem C97_real_field_config {ig : Integrator} (hi : ig.Interior) (hc : ig.Conj) (k : Consts ℝ) (p beta mu f0 : ℝ) (nc : ℕ) (m : ℝ) (qs : List (ℕ × ℝ)) (hm : m ≠ 0) (hq : ∀ q ∈ qs, q.2 ≠ 0) (hb : 0 < beta) (om : ℝ) (ho : om ≠ 0) :
    (qcd.thermal.gluon.dressing_l_inv_landau_w_field_config ig k om p beta mu f0 (FieldConfig.new nc m qs)).im = 0 ∧
    (qcd.thermal.gluon.dressing_l_landau_w_field_config ig k om p beta mu f0 (FieldConfig.new nc m qs)).im = 0 ∧
    (qcd.thermal.gluon.propagator_l_landau_w_field_config ig k om p beta mu f0 (FieldConfig.new nc m qs)).im = 0 ∧
    (qcd.thermal.gluon.dressing_t_inv_landau_w_field_config ig k om p beta mu f0 (FieldConfig.new nc m qs)).im = 0 ∧
    (qcd.thermal.gluon.dressing_t_landau_w_field_config ig k om p beta mu f0 (FieldConfig.new nc m qs)).im = 0 ∧
    (qcd.thermal.gluon.propagator_t_landau_w_field_config ig k om p beta mu f0 (FieldConfig.new nc m qs)).im = 0 ∧
    (qcd.thermal.zero_momentum.gluon.dressing_l_inv_landau_w_field_config ig k om beta mu f0 (FieldConfig.new nc m qs)).im = 0 ∧
    (qcd.thermal.zero_momentum.gluon.dressing_l_landau_w_field_config ig k om beta mu f0 (FieldConfig.new nc m qs)).im = 0 ∧
    (qcd.thermal.zero_momentum.gluon.propagator_l_landau_w_field_config ig k om beta mu f0 (FieldConfig.new nc m qs)).im = 0 ∧
    (qcd.thermal.zero_momentum.gluon.dressing_t_inv_landau_w_field_config ig k om beta mu f0 (FieldConfig.new nc m qs)).im = 0 ∧
    (qcd.thermal.zero_momentum.gluon.dressing_t_landau_w_field_config ig k om beta mu f0 (FieldConfig.new nc m qs)).im = 0 ∧
    (qcd.thermal.zero_momentum.gluon.propagator_t_landau_w_field_config ig k om beta mu f0 (FieldConfig.new nc m qs)).im = 0 := by
  have hP := admissible_symmetric hi hc
  have icfg_l : (qcd.thermal.gluon.dressing_l_inv_landau_w_field_config ig k om p beta mu f0 (FieldConfig.new nc m qs)).im = 0 := by
    rw [rd_cfg_l ig k p beta mu f0 nc m qs hm hq ho]
    exact symmetric_real (dr_cfg_l hP k p beta mu f0 nc m qs hm hq hb) ho
  have icfg_t : (qcd.thermal.gluon.dressing_t_inv_landau_w_field_config ig k om p beta mu f0 (FieldConfig.new nc m qs)).im = 0 := by
    rw [rd_cfg_t ig k p beta mu f0 nc m qs hm hq ho]
    exact symmetric_real (dr_cfg_t hP k p beta mu f0 nc m qs hm hq hb) ho
  have izm_cfg_l : (qcd.thermal.zero_momentum.gluon.dressing_l_inv_landau_w_field_config ig k om beta mu f0 (FieldConfig.new nc m qs)).im = 0 := by
    rw [rd_zm_cfg_l ig k beta mu f0 nc m qs hm hq ho]
    exact symmetric_real (dr_zm_cfg_l hP k beta mu f0 nc m qs hm hq hb) ho
  have izm_cfg_t : (qcd.thermal.zero_momentum.gluon.dressing_t_inv_landau_w_field_config ig k om beta mu f0 (FieldConfig.new nc m qs)).im = 0 := by
    rw [rd_zm_cfg_t ig k beta mu f0 nc m qs hm hq ho]
    exact symmetric_real (dr_zm_cfg_t hP k beta mu f0 nc m qs hm hq hb) ho
  exact ⟨icfg_l,
    by rw [qcd.thermal.gluon.dressing_l_landau_w_field_config]; exact im_inv_zero icfg_l,
    by rw [qcd.thermal.gluon.propagator_l_landau_w_field_config, qcd.thermal.gluon.dressing_l_landau_w_field_config]; exact im_prop_zero (by simp [pow_two]) icfg_l,
    icfg_t,
    by rw [qcd.thermal.gluon.dressing_t_landau_w_field_config]; exact im_inv_zero icfg_t,
    by rw [qcd.thermal.gluon.propagator_t_landau_w_field_config, qcd.thermal.gluon.dressing_t_landau_w_field_config]; exact im_prop_zero (by simp [pow_two]) icfg_t,
    izm_cfg_l,
    by rw [qcd.thermal.zero_momentum.gluon.dressing_l_landau_w_field_config]; exact im_inv_zero izm_cfg_l,
    by rw [qcd.thermal.zero_momentum.gluon.propagator_l_landau_w_field_config, qcd.thermal.zero_momentum.gluon.dressing_l_landau_w_field_config]; exact im_prop_zero (by simp [pow_two]) izm_cfg_l,
    izm_cfg_t,
    by rw [qcd.thermal.zero_momentum.gluon.dressing_t_landau_w_field_config]; exact im_inv_zero izm_cfg_t,
    by rw [qcd.thermal.zero_momentum.gluon.propagator_t_landau_w_field_config, qcd.thermal.zero_momentum.gluon.dressing_t_landau_w_field_config]; exact im_prop_zero (by simp [pow_two]) izm_cfg_t⟩

/-- **C97** (real and complex entry points): QCD gluon, any field configuration. -/
theorem C97_entry_points_field_config (ig : Integrator) (k : Consts ℝ) (p beta mu f0 : ℝ) (nc : ℕ) (m : ℝ) (qs : List (ℕ × ℝ)) (hm : m ≠ 0) (hq : ∀ q ∈ qs, q.2 ≠ 0) (om : ℝ) (ho : om ≠ 0) :
    qcd.thermal.gluon.dressing_l_inv_landau_w_field_config ig k om p beta mu f0 (FieldConfig.new nc m qs) = qcd.thermal.gluon.dressing_l_inv_landau_w_field_config ig k (om : ℂ) p beta mu f0 (FieldConfig.new nc m qs) ∧
    qcd.thermal.gluon.dressing_l_landau_w_field_config ig k om p beta mu f0 (FieldConfig.new nc m qs) = qcd.thermal.gluon.dressing_l_landau_w_field_config ig k (om : ℂ) p beta mu f0 (FieldConfig.new nc m qs) ∧
    qcd.thermal.gluon.propagator_l_landau_w_field_config ig k om p beta mu f0 (FieldConfig.new nc m qs) = qcd.thermal.gluon.propagator_l_landau_w_field_config ig k (om : ℂ) p beta mu f0 (FieldConfig.new nc m qs) ∧
    qcd.thermal.gluon.dressing_t_inv_landau_w_field_config ig k om p beta mu f0 (FieldConfig.new nc m qs) = qcd.thermal.gluon.dressing_t_inv_landau_w_field_config ig k (om : ℂ) p beta mu f0 (FieldConfig.new nc m qs) ∧
    qcd.thermal.gluon.dressing_t_landau_w_field_config ig k om p beta mu f0 (FieldConfig.new nc m qs) = qcd.thermal.gluon.dressing_t_landau_w_field_config ig k (om : ℂ) p beta mu f0 (FieldConfig.new nc m qs) ∧
    qcd.thermal.gluon.propagator_t_landau_w_field_config ig k om p beta mu f0 (FieldConfig.new nc m qs) = qcd.thermal.gluon.propagator_t_landau_w_field_config ig k (om : ℂ) p beta mu f0 (FieldConfig.new nc m qs) ∧
    qcd.thermal.zero_momentum.gluon.dressing_l_inv_landau_w_field_config ig k om beta mu f0 (FieldConfig.new nc m qs) = qcd.thermal.zero_momentum.gluon.dressing_l_inv_landau_w_field_config ig k (om : ℂ) beta mu f0 (FieldConfig.new nc m qs) ∧
    qcd.thermal.zero_momentum.gluon.dressing_l_landau_w_field_config ig k om beta mu f0 (FieldConfig.new nc m qs) = qcd.thermal.zero_momentum.gluon.dressing_l_landau_w_field_config ig k (om : ℂ) beta mu f0 (FieldConfig.new nc m qs) ∧
    qcd.thermal.zero_momentum.gluon.propagator_l_landau_w_field_config ig k om beta mu f0 (FieldConfig.new nc m qs) = qcd.thermal.zero_momentum.gluon.propagator_l_landau_w_field_config ig k (om : ℂ) beta mu f0 (FieldConfig.new nc m qs) ∧
    qcd.thermal.zero_momentum.gluon.dressing_t_inv_landau_w_field_config ig k om beta mu f0 (FieldConfig.new nc m qs) = qcd.thermal.zero_momentum.gluon.dressing_t_inv_landau_w_field_config ig k (om : ℂ) beta mu f0 (FieldConfig.new nc m qs) ∧
    qcd.thermal.zero_momentum.gluon.dressing_t_landau_w_field_config ig k om beta mu f0 (FieldConfig.new nc m qs) = qcd.thermal.zero_momentum.gluon.dressing_t_landau_w_field_config ig k (om : ℂ) beta mu f0 (FieldConfig.new nc m qs) ∧
    qcd.thermal.zero_momentum.gluon.propagator_t_landau_w_field_config ig k om beta mu f0 (FieldConfig.new nc m qs) = qcd.thermal.zero_momentum.gluon.propagator_t_landau_w_field_config ig k (om : ℂ) beta mu f0 (FieldConfig.new nc m qs) :=
  ⟨rd_cfg_l ig k p beta mu f0 nc m qs hm hq ho,
   by simp only [qcd.thermal.gluon.dressing_l_landau_w_field_config, rd_cfg_l ig k p beta mu f0 nc m qs hm hq ho],
   by simp only [qcd.thermal.gluon.propagator_l_landau_w_field_config, qcd.thermal.gluon.dressing_l_landau_w_field_config, rd_cfg_l ig k p beta mu f0 nc m qs hm hq ho, toC_complex, toC_real, ofR_complex, ofR_real]; push_cast; rfl,
   rd_cfg_t ig k p beta mu f0 nc m qs hm hq ho,
   by simp only [qcd.thermal.gluon.dressing_t_landau_w_field_config, rd_cfg_t ig k p beta mu f0 nc m qs hm hq ho],
   by simp only [qcd.thermal.gluon.propagator_t_landau_w_field_config, qcd.thermal.gluon.dressing_t_landau_w_field_config, rd_cfg_t ig k p beta mu f0 nc m qs hm hq ho, toC_complex, toC_real, ofR_complex, ofR_real]; push_cast; rfl,
   rd_zm_cfg_l ig k beta mu f0 nc m qs hm hq ho,
   by simp only [qcd.thermal.zero_momentum.gluon.dressing_l_landau_w_field_config, rd_zm_cfg_l ig k beta mu f0 nc m qs hm hq ho],
   by simp only [qcd.thermal.zero_momentum.gluon.propagator_l_landau_w_field_config, qcd.thermal.zero_momentum.gluon.dressing_l_landau_w_field_config, rd_zm_cfg_l ig k beta mu f0 nc m qs hm hq ho, toC_complex, toC_real, ofR_complex, ofR_real]; push_cast; rfl,
   rd_zm_cfg_t ig k beta mu f0 nc m qs hm hq ho,
   by simp only [qcd.thermal.zero_momentum.gluon.dressing_t_landau_w_field_config, rd_zm_cfg_t ig k beta mu f0 nc m qs hm hq ho],
   by simp only [qcd.thermal.zero_momentum.gluon.propagator_t_landau_w_field_config, qcd.thermal.zero_momentum.gluon.dressing_t_landau_w_field_config, rd_zm_cfg_t ig k beta mu f0 nc m qs hm hq ho, toC_complex, toC_real, ofR_complex, ofR_real]; push_cast; rfl⟩

/-- **C97** (values are real): QCD gluon at zero temperature, any field configuration. -/
theorem C97_real_field_config_zero_temp {ig : Integrator} (hi : ig.Interior) (hc : ig.Conj) (k : Consts ℝ) (p mu f0 : ℝ) (nc : ℕ) (m : ℝ) (qs : List (ℕ × ℝ)) (hm : m ≠ 0) (hq : ∀ q ∈ qs, q.2 ≠ 0) (om : ℝ) (ho : om ≠ 0) :
    (qcd.thermal.gluon.dressing_l_inv_zero_temp_landau_w_field_config ig k om p mu f0 (FieldConfig.new nc m qs)).im = 0 ∧
    (qcd.thermal.gluon.dressing_l_zero_temp_landau_w_field_config ig k om p mu f0 (FieldConfig.new nc m qs)).im = 0 ∧
    (qcd.thermal.gluon.propagator_l_zero_temp_landau_w_field_config ig k om p mu f0 (FieldConfig.new nc m qs)).im = 0 ∧
    (qcd.thermal.gluon.dressing_t_inv_zero_temp_landau_w_field_config ig k om p mu f0 (FieldConfig.new nc m qs)).im = 0 ∧
    (qcd.thermal.gluon.dressing_t_zero_temp_landau_w_field_config ig k om p mu f0 (FieldConfig.new nc m qs)).im = 0 ∧
    (qcd.thermal.gluon.propagator_t_zero_temp_landau_w_field_config ig k om p mu f0 (FieldConfig.new nc m qs)).im = 0 ∧
    (qcd.thermal.zero_momentum.gluon.dressing_l_inv_zero_temp_landau_w_field_config ig k om mu f0 (FieldConfig.new nc m qs)).im = 0 ∧
    (qcd.thermal.zero_momentum.gluon.dressing_l_zero_temp_landau_w_field_config ig k om mu f0 (FieldConfig.new nc m qs)).im = 0 ∧
    (qcd.thermal.zero_momentum.gluon.propagator_l_zero_temp_landau_w_field_config ig k om mu f0 (FieldConfig.new nc m qs)).im = 0 ∧
    (qcd.thermal.zero_momentum.gluon.dressing_t_inv_zero_temp_landau_w_field_config ig k om mu f0 (FieldConfig.new nc m qs)).im = 0 ∧
    (qcd.thermal.zero_momentum.gluon.dressing_t_zero_temp_landau_w_field_config ig k om mu f0 (FieldConfig.new nc m qs)).im = 0 ∧
    (qcd.thermal.zero_momentum.gluon.propagator_t_zero_temp_landau_w_field_config ig k om mu f0 (FieldConfig.new nc m qs)).im = 0 := by
  have hP := admissible_symmetric hi hc
  have icfg0_l : (qcd.thermal.gluon.dressing_l_inv_zero_temp_landau_w_field_config ig k om p mu f0 (FieldConfig.new nc m qs)).im = 0 := by
    rw [rd_cfg0_l ig k p mu f0 nc m qs hm hq ho]
    exact symmetric_real (dr_cfg0_l hP k p mu f0 nc m qs hm hq) ho
  have icfg0_t : (qcd.thermal.gluon.dressing_t_inv_zero_temp_landau_w_field_config ig k om p mu f0 (FieldConfig.new nc m qs)).im = 0 := by
    rw [rd_cfg0_t ig k p mu f0 nc m qs hm hq ho]
    exact symmetric_real (dr_cfg0_t hP k p mu f0 nc m qs hm hq) ho
  have izm_cfg0_l : (qcd.thermal.zero_momentum.gluon.dressing_l_inv_zero_temp_landau_w_field_config ig k om mu f0 (FieldConfig.new nc m qs)).im = 0 := by
    rw [rd_zm_cfg0_l ig k mu f0 nc m qs hm hq ho]
    exact symmetric_real (dr_zm_cfg0_l hP k mu f0 nc m qs hm hq) ho
  have izm_cfg0_t : (qcd.thermal.zero_momentum.gluon.dressing_t_inv_zero_temp_landau_w_field_config ig k om mu f0 (FieldConfig.new nc m qs)).im = 0 := by
    rw [rd_zm_cfg0_t ig k mu f0 nc m qs hm hq ho]
    exact symmetric_real (dr_zm_cfg0_t hP k mu f0 nc m qs hm hq) ho
  exact ⟨icfg0_l,
    by rw [qcd.thermal.gluon.dressing_l_zero_temp_landau_w_field_config]; exact im_inv_zero icfg0_l,
    by rw [qcd.thermal.gluon.propagator_l_zero_temp_landau_w_field_config, qcd.thermal.gluon.dressing_l_zero_temp_landau_w_field_config]; exact im_prop_zero (by simp [pow_two]) icfg0_l,
    icfg0_t,
    by rw [qcd.thermal.gluon.dressing_t_zero_temp_landau_w_field_config]; exact im_inv_zero icfg0_t,
    by rw [qcd.thermal.gluon.propagator_t_zero_temp_landau_w_field_config, qcd.thermal.gluon.dressing_t_zero_temp_landau_w_field_config]; exact im_prop_zero (by simp [pow_two]) icfg0_t,
    izm_cfg0_l,
    by rw [qcd.thermal.zero_momentum.gluon.dressing_l_zero_temp_landau_w_field_config]; exact im_inv_zero izm_cfg0_l,
    by rw [qcd.thermal.zero_momentum.gluon.propagator_l_zero_temp_landau_w_field_config, qcd.thermal.zero_momentum.gluon.dressing_l_zero_temp_landau_w_field_config]; exact im_prop_zero (by simp [pow_two]) izm_cfg0_l,
    izm_cfg0_t,
    by rw [qcd.thermal.zero_momentum.gluon.dressing_t_zero_temp_landau_w_field_config]; exact im_inv_zero izm_cfg0_t,
    by rw [qcd.thermal.zero_momentum.gluon.propagator_t_zero_temp_landau_w_field_config, qcd.thermal.zero_momentum.gluon.dressing_t_zero_temp_landau_w_field_config]; exact im_prop_zero (by simp [pow_two]) izm_cfg0_t⟩

/-- **C97** (real and complex entry points): QCD gluon at zero temperature, any field configuration. -/
theorem C97_entry_points_field_config_zero_temp (ig : Integrator) (k : Consts ℝ) (p mu f0 : ℝ) (nc : ℕ) (m : ℝ) (qs : List (ℕ × ℝ)) (hm : m ≠ 0) (hq : ∀ q ∈ qs, q.2 ≠ 0) (om : ℝ) (ho : om ≠ 0) :
    qcd.thermal.gluon.dressing_l_inv_zero_temp_landau_w_field_config ig k om p mu f0 (FieldConfig.new nc m qs) = qcd.thermal.gluon.dressing_l_inv_zero_temp_landau_w_field_config ig k (om : ℂ) p mu f0 (FieldConfig.new nc m qs) ∧
    qcd.thermal.gluon.dressing_l_zero_temp_landau_w_field_config ig k om p mu f0 (FieldConfig.new nc m qs) = qcd.thermal.gluon.dressing_l_zero_temp_landau_w_field_config ig k (om : ℂ) p mu f0 (FieldConfig.new nc m qs) ∧
    qcd.thermal.gluon.propagator_l_zero_temp_landau_w_field_config ig k om p mu f0 (FieldConfig.new nc m qs) = qcd.thermal.gluon.propagator_l_zero_temp_landau_w_field_config ig k (om : ℂ) p mu f0 (FieldConfig.new nc m qs) ∧
    qcd.thermal.gluon.dressing_t_inv_zero_temp_landau_w_field_config ig k om p mu f0 (FieldConfig.new nc m qs) = qcd.thermal.gluon.dressing_t_inv_zero_temp_landau_w_field_config ig k (om : ℂ) p mu f0 (FieldConfig.new nc m qs) ∧
    qcd.thermal.gluon.dressing_t_zero_temp_landau_w_field_config ig k om p mu f0 (FieldConfig.new nc m qs) = qcd.thermal.gluon.dressing_t_zero_temp_landau_w_field_config ig k (om : ℂ) p mu f0 (FieldConfig.new nc m qs) ∧
    qcd.thermal.gluon.propagator_t_zero_temp_landau_w_field_config ig k om p mu f0 (FieldConfig.new nc m qs) = qcd.thermal.gluon.propagator_t_zero_temp_landau_w_field_config ig k (om : ℂ) p mu f0 (FieldConfig.new nc m qs) ∧
    qcd.thermal.zero_momentum.gluon.dressing_l_inv_zero_temp_landau_w_field_config ig k om mu f0 (FieldConfig.new nc m qs) = qcd.thermal.zero_momentum.gluon.dressing_l_inv_zero_temp_landau_w_field_config ig k (om : ℂ) mu f0 (FieldConfig.new nc m qs) ∧
    qcd.thermal.zero_momentum.gluon.dressing_l_zero_temp_landau_w_field_config ig k om mu f0 (FieldConfig.new nc m qs) = qcd.thermal.zero_momentum.gluon.dressing_l_zero_temp_landau_w_field_config ig k (om : ℂ) mu f0 (FieldConfig.new nc m qs) ∧
    qcd.thermal.zero_momentum.gluon.propagator_l_zero_temp_landau_w_field_config ig k om mu f0 (FieldConfig.new nc m qs) = qcd.thermal.zero_momentum.gluon.propagator_l_zero_temp_landau_w_field_config ig k (om : ℂ) mu f0 (FieldConfig.new nc m qs) ∧
    qcd.thermal.zero_momentum.gluon.dressing_t_inv_zero_temp_landau_w_field_config ig k om mu f0 (FieldConfig.new nc m qs) = qcd.thermal.zero_momentum.gluon.dressing_t_inv_zero_temp_landau_w_field_config ig k (om : ℂ) mu f0 (FieldConfig.new nc m qs) ∧
    qcd.thermal.zero_momentum.gluon.dressing_t_zero_temp_landau_w_field_config ig k om mu f0 (FieldConfig.new nc m qs) = qcd.thermal.zero_momentum.gluon.dressing_t_zero_temp_landau_w_field_config ig k (om : ℂ) mu f0 (FieldConfig.new nc m qs) ∧
    qcd.thermal.zero_momentum.gluon.propagator_t_zero_temp_landau_w_field_config ig k om mu f0 (FieldConfig.new nc m qs) = qcd.thermal.zero_momentum.gluon.propagator_t_zero_temp_landau_w_field_config ig k (om : ℂ) mu f0 (FieldConfig.new nc m qs) :=
  ⟨rd_cfg0_l ig k p mu f0 nc m qs hm hq ho,
   by simp only [qcd.thermal.gluon.dressing_l_zero_temp_landau_w_field_config, rd_cfg0_l ig k p mu f0 nc m qs hm hq ho],
   by simp only [qcd.thermal.gluon.propagator_l_zero_temp_landau_w_field_config, qcd.thermal.gluon.dressing_l_zero_temp_landau_w_field_config, rd_cfg0_l ig k p mu f0 nc m qs hm hq ho, toC_complex, toC_real, ofR_complex, ofR_real]; push_cast; rfl,
   rd_cfg0_t ig k p mu f0 nc m qs hm hq ho,
   by simp only [qcd.thermal.gluon.dressing_t_zero_temp_landau_w_field_config, rd_cfg0_t ig k p mu f0 nc m qs hm hq ho],
   by simp only [qcd.thermal.gluon.propagator_t_zero_temp_landau_w_field_config, qcd.thermal.gluon.dressing_t_zero_temp_landau_w_field_config, rd_cfg0_t ig k p mu f0 nc m qs hm hq ho, toC_complex, toC_real, ofR_complex, ofR_real]; push_cast; rfl,
   rd_zm_cfg0_l ig k mu f0 nc m qs hm hq ho,
   by simp only [qcd.thermal.zero_momentum.gluon.dressing_l_zero_temp_landau_w_field_config, rd_zm_cfg0_l ig k mu f0 nc m qs hm hq ho],
   by simp only [qcd.thermal.zero_momentum.gluon.propagator_l_zero_temp_landau_w_field_config, qcd.thermal.zero_momentum.gluon.dressing_l_zero_temp_landau_w_field_config, rd_zm_cfg0_l ig k mu f0 nc m qs hm hq ho, toC_complex, toC_real, ofR_complex, ofR_real]; push_cast; rfl,
   rd_zm_cfg0_t ig k mu f0 nc m qs hm hq ho,
   by simp only [qcd.thermal.zero_momentum.gluon.dressing_t_zero_temp_landau_w_field_config, rd_zm_cfg0_t ig k mu f0 nc m qs hm hq ho],
   by simp only [qcd.thermal.zero_momentum.gluon.propagator_t_zero_temp_landau_w_field_config, qcd.thermal.zero_momentum.gluon.dressing_t_zero_temp_landau_w_field_config, rd_zm_cfg0_t ig k mu f0 nc m qs hm hq ho, toC_complex, toC_real, ofR_complex, ofR_real]; push_cast; rfl⟩

/-! ### The hypotheses are met -/

example (k : Consts ℝ) : (qcd.thermal.gluon.propagator_l_landau .exact k (1 / 1000 : ℝ) (1 / 2) (656 / 1000) (1 / 2) 4 (3 / 10) (-876 / 1000)).im = 0 :=
  (C97_real_qcd exact_interior exact_conj k (1 / 2) (656 / 1000) (1 / 2) 4 (3 / 10) (-876 / 1000) (by norm_num) (by norm_num) (by norm_num) _ (by norm_num)).2.2.1

end Qcd
