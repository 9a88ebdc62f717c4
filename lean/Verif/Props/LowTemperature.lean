import Verif.Lemmas.DominationFull
import Verif.Props.ThermalZeroTemp
import Verif.Props.ThermalDressing
import Verif.Props.ThermalIntegrals
import Verif.Props.VacuumAlgebra

/-! # C72, C73: existence of the thermal integrals and the limit of zero temperature

With the exact integrator, at a real frequency `om ≠ 0`, a real momentum and a gluon mass `m ≠ 0`:

* C73: the integrands are integrable, at every temperature, on `(0, ∞)` and in the compactified variable handed to the integrator;
* C72: as `beta → ∞` the integrated thermal parts tend to 0 (quark parts: to their zero-temperature versions at the same chemical
  potential), and with them the dressing functions and propagators of pure Yang-Mills theory to the vacuum ones and those of QCD to
  the zero-temperature ones, which below the quark threshold are the vacuum ones. -/

set_option linter.unusedSimpArgs false

namespace Qcd
open MeasureTheory Filter Topology Set
open consts (Consts Integral)

section
variable {b0 om p m mq mu : ℝ}

theorem fermi_surface_null (mq mu : ℝ) : ∀ᵐ q ∂volume.restrict (Ioi (0 : ℝ)), energy q mq ≠ |mu| := by
  rw [ae_restrict_iff' measurableSet_Ioi]
  have h : ({q : ℝ | q ∈ Ioi (0 : ℝ) ∧ energy q mq = |mu|}).Subsingleton := fun x hx y hy => by
    obtain ⟨hx, ex⟩ := hx
    obtain ⟨hy, ey⟩ := hy
    have e := ex.trans ey.symm
    rw [energy_real, energy_real, Real.sqrt_inj (add_nonneg (mul_self_nonneg _) (mul_self_nonneg _)) (add_nonneg (mul_self_nonneg _) (mul_self_nonneg _))] at e
    have := mul_self_eq_mul_self_iff.1 (add_left_cancel e)
    rcases this with h | h
    · exact h
    · simp only [mem_Ioi] at hx hy; linarith
  filter_upwards [measure_eq_zero_iff_ae_notMem.1 (h.measure_zero volume)] with q hq h1 h2
  exact hq ⟨h1, h2⟩

theorem Dom.tendsto_zero {F : ℝ → ℝ → ℂ} (hF : Dom 1 F) (h : ∀ q, 0 < q → Tendsto (fun b => F b q) atTop (𝓝 0)) :
    Tendsto (fun b => ∫ q in Ioi (0 : ℝ), F b q) atTop (𝓝 0) := by
  have := hF.tendsto one_pos (L := fun _ => 0) ((ae_restrict_iff' measurableSet_Ioi).2 (.of_forall fun q hq => h q hq))
  simpa using this

theorem Dom.tendsto_fermi {F : ℝ → ℝ → ℂ} (hF : Dom 1 F) {L : ℝ → ℂ} (mq mu : ℝ)
    (h : ∀ q, 0 < q → energy q mq ≠ |mu| → Tendsto (fun b => F b q) atTop (𝓝 (L q))) :
    Tendsto (fun b => ∫ q in Ioi (0 : ℝ), F b q) atTop (𝓝 (∫ q in Ioi (0 : ℝ), L q)) := by
  refine hF.tendsto one_pos ?_
  filter_upwards [fermi_surface_null mq mu, ae_restrict_mem measurableSet_Ioi] with q h1 h2
  exact h q h2 h1

theorem integral_re_Ioi {f : ℝ → ℂ} (h : IntegrableOn f (Ioi 0)) :
    ∫ q in Ioi (0 : ℝ), (f q).re = (∫ q in Ioi (0 : ℝ), f q).re :=
  Complex.reCLM.integral_comp_comm h

theorem Dom.limit_integrable {F : ℝ → ℝ → ℂ} (hF : Dom 1 F) {L : ℝ → ℂ} (mq mu : ℝ)
    (h : ∀ q, 0 < q → energy q mq ≠ |mu| → Tendsto (fun b => F b q) atTop (𝓝 (L q))) : IntegrableOn L (Ioi 0) := by
  obtain ⟨hm, C, k, hC, hb⟩ := hF
  have hae : ∀ᵐ q ∂volume.restrict (Ioi (0 : ℝ)), Tendsto (fun b => F b q) atTop (𝓝 (L q)) := by
    filter_upwards [fermi_surface_null mq mu, ae_restrict_mem measurableSet_Ioi] with q h1 h2
    exact h q h2 h1
  refine Integrable.mono' (Dom.bound_integrable one_pos C k) ?_ ?_
  · refine aestronglyMeasurable_of_tendsto_ae (u := atTop) (f := F) (fun b => (hm b).aestronglyMeasurable) hae
  · filter_upwards [hae, ae_restrict_mem measurableSet_Ioi] with q h1 h2
    refine le_of_tendsto h1.norm ?_
    filter_upwards [eventually_ge_atTop (1 : ℝ)] with b hb'
    exact hb b hb' q h2

end

theorem tendsto_nhds_congr_right {E : Type} [TopologicalSpace E] {f : ℝ → E} {x y : E} (h : Tendsto f atTop (𝓝 x)) (e : x = y) :
    Tendsto f atTop (𝓝 y) := e ▸ h

open consts (get_default_integration_method)

/-! ### C73: the integrals exist -/

/-- **C73**: `ghost::thermal::self_energy_thermal_part_landau_i` is integrable, and so is what is handed to the integrator. -/
theorem C73_ghost_thermal_self_energy {om : ℝ} (ho : om ≠ 0) {m : ℝ} (hm : m ≠ 0) (p : ℝ) {beta : ℝ} (hb : 0 < beta) :
    IntegrableOn (fun q => ghost.thermal.self_energy_thermal_part_landau_i q om p m beta) (Ioi 0) ∧
    IntervalIntegrable (fun t => ghost.thermal.self_energy_thermal_part_landau_i ((1 - t) / t) om p m beta / ((t * t : ℝ) : ℂ)) volume 0 1 := by
  have h : IntegrableOn (fun q => ghost.thermal.self_energy_thermal_part_landau_i q om p m beta) (Ioi 0) := Dom.integrable hb (dom_ghost hb ho hm) le_rfl
  exact ⟨h, (C46_integrable_cplx _).2 h⟩

/-- **C73**: `gluon::thermal::polarization_glue_l_thermal_part_landau_i` is integrable, and so is what is handed to the integrator. -/
theorem C73_gluon_thermal_polarization_glue_l {om : ℝ} (ho : om ≠ 0) {m : ℝ} (hm : m ≠ 0) (p : ℝ) {beta : ℝ} (hb : 0 < beta) :
    IntegrableOn (fun q => gluon.thermal.polarization_glue_l_thermal_part_landau_i q om p m beta) (Ioi 0) ∧
    IntervalIntegrable (fun t => gluon.thermal.polarization_glue_l_thermal_part_landau_i ((1 - t) / t) om p m beta / ((t * t : ℝ) : ℂ)) volume 0 1 := by
  have h : IntegrableOn (fun q => gluon.thermal.polarization_glue_l_thermal_part_landau_i q om p m beta) (Ioi 0) := Dom.integrable hb (dom_glue_l hb ho hm) le_rfl
  exact ⟨h, (C46_integrable_cplx _).2 h⟩

/-- **C73**: `gluon::thermal::polarization_glue_t_thermal_part_landau_i` is integrable, and so is what is handed to the integrator. -/
theorem C73_gluon_thermal_polarization_glue_t {om : ℝ} (ho : om ≠ 0) {m : ℝ} (hm : m ≠ 0) (p : ℝ) {beta : ℝ} (hb : 0 < beta) :
    IntegrableOn (fun q => gluon.thermal.polarization_glue_t_thermal_part_landau_i q om p m beta) (Ioi 0) ∧
    IntervalIntegrable (fun t => gluon.thermal.polarization_glue_t_thermal_part_landau_i ((1 - t) / t) om p m beta / ((t * t : ℝ) : ℂ)) volume 0 1 := by
  have h : IntegrableOn (fun q => gluon.thermal.polarization_glue_t_thermal_part_landau_i q om p m beta) (Ioi 0) := Dom.integrable hb (dom_glue_t hb ho hm) le_rfl
  exact ⟨h, (C46_integrable_cplx _).2 h⟩

/-- **C73**: `gluon::thermal::polarization_quark_l_thermal_part_landau_i` is integrable, and so is what is handed to the integrator. -/
theorem C73_gluon_thermal_polarization_quark_l {om : ℝ} (ho : om ≠ 0) (k : Consts ℝ) (p mq mu : ℝ) {beta : ℝ} (hb : 0 < beta) :
    IntegrableOn (fun q => gluon.thermal.polarization_quark_l_thermal_part_landau_i k q om p mq beta mu) (Ioi 0) ∧
    IntervalIntegrable (fun t => gluon.thermal.polarization_quark_l_thermal_part_landau_i k ((1 - t) / t) om p mq beta mu / ((t * t : ℝ) : ℂ)) volume 0 1 := by
  have h : IntegrableOn (fun q => gluon.thermal.polarization_quark_l_thermal_part_landau_i k q om p mq beta mu) (Ioi 0) := Dom.integrable hb (dom_quark_l hb ho k) le_rfl
  exact ⟨h, (C46_integrable_cplx _).2 h⟩

/-- **C73**: `gluon::thermal::polarization_quark_l_thermal_part_zero_temp_landau_i` is integrable. -/
theorem C73_gluon_thermal_polarization_quark_l_zero_temp {om : ℝ} (ho : om ≠ 0) (k : Consts ℝ) (p mq mu : ℝ) :
    IntegrableOn (fun q => gluon.thermal.polarization_quark_l_thermal_part_zero_temp_landau_i k q om p mq mu) (Ioi 0) :=
  (dom_quark_l one_pos ho k : Dom 1 fun beta q => gluon.thermal.polarization_quark_l_thermal_part_landau_i k q om p mq beta mu).limit_integrable mq mu
    fun _ hq hF => C48_gluon_thermal_polarization_quark_l hq k om p mq mu hF

/-- **C73**: `gluon::thermal::polarization_quark_t_thermal_part_landau_i` is integrable, and so is what is handed to the integrator. -/
theorem C73_gluon_thermal_polarization_quark_t {om : ℝ} (ho : om ≠ 0) (k : Consts ℝ) (p mq mu : ℝ) {beta : ℝ} (hb : 0 < beta) :
    IntegrableOn (fun q => gluon.thermal.polarization_quark_t_thermal_part_landau_i k q om p mq beta mu) (Ioi 0) ∧
    IntervalIntegrable (fun t => gluon.thermal.polarization_quark_t_thermal_part_landau_i k ((1 - t) / t) om p mq beta mu / ((t * t : ℝ) : ℂ)) volume 0 1 := by
  have h : IntegrableOn (fun q => gluon.thermal.polarization_quark_t_thermal_part_landau_i k q om p mq beta mu) (Ioi 0) := Dom.integrable hb (dom_quark_t hb ho k) le_rfl
  exact ⟨h, (C46_integrable_cplx _).2 h⟩

/-- **C73**: `gluon::thermal::polarization_quark_t_thermal_part_zero_temp_landau_i` is integrable. -/
theorem C73_gluon_thermal_polarization_quark_t_zero_temp {om : ℝ} (ho : om ≠ 0) (k : Consts ℝ) (p mq mu : ℝ) :
    IntegrableOn (fun q => gluon.thermal.polarization_quark_t_thermal_part_zero_temp_landau_i k q om p mq mu) (Ioi 0) :=
  (dom_quark_t one_pos ho k : Dom 1 fun beta q => gluon.thermal.polarization_quark_t_thermal_part_landau_i k q om p mq beta mu).limit_integrable mq mu
    fun _ hq hF => C48_gluon_thermal_polarization_quark_t hq k om p mq mu hF

/-- **C73**: `ghost::thermal::zero_momentum::self_energy_thermal_part_landau_i` is integrable, and so is what is handed to the integrator. -/
theorem C73_ghost_thermal_zero_momentum_self_energy {om : ℝ} (ho : om ≠ 0) {m : ℝ} (hm : m ≠ 0) {beta : ℝ} (hb : 0 < beta) :
    IntegrableOn (fun q => ghost.thermal.zero_momentum.self_energy_thermal_part_landau_i q om m beta) (Ioi 0) ∧
    IntervalIntegrable (fun t => ghost.thermal.zero_momentum.self_energy_thermal_part_landau_i ((1 - t) / t) om m beta / ((t * t : ℝ) : ℂ)) volume 0 1 := by
  have h : IntegrableOn (fun q => ghost.thermal.zero_momentum.self_energy_thermal_part_landau_i q om m beta) (Ioi 0) := Dom.integrable hb (dom_zm_ghost hb ho hm) le_rfl
  exact ⟨h, (C46_integrable_cplx _).2 h⟩

/-- **C73**: `gluon::thermal::zero_momentum::polarization_glue_l_thermal_part_landau_i` is integrable, and so is what is handed to the integrator. -/
theorem C73_gluon_thermal_zero_momentum_polarization_glue_l {om : ℝ} (ho : om ≠ 0) {m : ℝ} (hm : m ≠ 0) {beta : ℝ} (hb : 0 < beta) :
    IntegrableOn (fun q => gluon.thermal.zero_momentum.polarization_glue_l_thermal_part_landau_i q om m beta) (Ioi 0) ∧
    IntervalIntegrable (fun t => gluon.thermal.zero_momentum.polarization_glue_l_thermal_part_landau_i ((1 - t) / t) om m beta / ((t * t : ℝ) : ℂ)) volume 0 1 := by
  have h : IntegrableOn (fun q => gluon.thermal.zero_momentum.polarization_glue_l_thermal_part_landau_i q om m beta) (Ioi 0) := Dom.integrable hb (dom_zm_glue_l hb ho hm) le_rfl
  exact ⟨h, (C46_integrable_cplx _).2 h⟩

/-- **C73**: `gluon::thermal::zero_momentum::polarization_glue_t_thermal_part_landau_i` is integrable, and so is what is handed to the integrator. -/
theorem C73_gluon_thermal_zero_momentum_polarization_glue_t {om : ℝ} (ho : om ≠ 0) {m : ℝ} (hm : m ≠ 0) {beta : ℝ} (hb : 0 < beta) :
    IntegrableOn (fun q => gluon.thermal.zero_momentum.polarization_glue_t_thermal_part_landau_i q om m beta) (Ioi 0) ∧
    IntervalIntegrable (fun t => gluon.thermal.zero_momentum.polarization_glue_t_thermal_part_landau_i ((1 - t) / t) om m beta / ((t * t : ℝ) : ℂ)) volume 0 1 := by
  have h : IntegrableOn (fun q => gluon.thermal.zero_momentum.polarization_glue_t_thermal_part_landau_i q om m beta) (Ioi 0) := Dom.integrable hb (dom_zm_glue_l hb ho hm) le_rfl
  exact ⟨h, (C46_integrable_cplx _).2 h⟩

/-- **C73**: `gluon::thermal::zero_momentum::polarization_quark_l_thermal_part_landau_i` is integrable, and so is what is handed to the integrator. -/
theorem C73_gluon_thermal_zero_momentum_polarization_quark_l {om : ℝ} (ho : om ≠ 0) (k : Consts ℝ) (mq mu : ℝ) {beta : ℝ} (hb : 0 < beta) :
    IntegrableOn (fun q => toC (gluon.thermal.zero_momentum.polarization_quark_l_thermal_part_landau_i k q om mq beta mu)) (Ioi 0) ∧
    IntervalIntegrable (fun t => toC (gluon.thermal.zero_momentum.polarization_quark_l_thermal_part_landau_i k ((1 - t) / t) om mq beta mu) / ((t * t : ℝ) : ℂ)) volume 0 1 := by
  have h : IntegrableOn (fun q => toC (gluon.thermal.zero_momentum.polarization_quark_l_thermal_part_landau_i k q om mq beta mu)) (Ioi 0) := Dom.integrable hb (dom_zm_quark hb ho k) le_rfl
  exact ⟨h, (C46_integrable_cplx _).2 h⟩

/-- **C73**: `gluon::thermal::zero_momentum::polarization_quark_l_thermal_part_zero_temp_landau_i` is integrable. -/
theorem C73_gluon_thermal_zero_momentum_polarization_quark_l_zero_temp {om : ℝ} (ho : om ≠ 0) (k : Consts ℝ) (mq mu : ℝ) :
    IntegrableOn (fun q => toC (gluon.thermal.zero_momentum.polarization_quark_l_thermal_part_zero_temp_landau_i k q om mq mu)) (Ioi 0) :=
  (dom_zm_quark one_pos ho k : Dom 1 fun beta q => toC (gluon.thermal.zero_momentum.polarization_quark_l_thermal_part_landau_i k q om mq beta mu)).limit_integrable mq mu
    fun _ hq hF => C48_gluon_thermal_zero_momentum_polarization_quark_l hq k om mq mu hF

/-- **C73**: `gluon::thermal::zero_momentum::polarization_quark_t_thermal_part_landau_i` is integrable, and so is what is handed to the integrator. -/
theorem C73_gluon_thermal_zero_momentum_polarization_quark_t {om : ℝ} (ho : om ≠ 0) (k : Consts ℝ) (mq mu : ℝ) {beta : ℝ} (hb : 0 < beta) :
    IntegrableOn (fun q => toC (gluon.thermal.zero_momentum.polarization_quark_t_thermal_part_landau_i k q om mq beta mu)) (Ioi 0) ∧
    IntervalIntegrable (fun t => toC (gluon.thermal.zero_momentum.polarization_quark_t_thermal_part_landau_i k ((1 - t) / t) om mq beta mu) / ((t * t : ℝ) : ℂ)) volume 0 1 := by
  have h : IntegrableOn (fun q => toC (gluon.thermal.zero_momentum.polarization_quark_t_thermal_part_landau_i k q om mq beta mu)) (Ioi 0) := Dom.integrable hb (dom_zm_quark hb ho k) le_rfl
  exact ⟨h, (C46_integrable_cplx _).2 h⟩

/-- **C73**: `gluon::thermal::zero_momentum::polarization_quark_t_thermal_part_zero_temp_landau_i` is integrable. -/
theorem C73_gluon_thermal_zero_momentum_polarization_quark_t_zero_temp {om : ℝ} (ho : om ≠ 0) (k : Consts ℝ) (mq mu : ℝ) :
    IntegrableOn (fun q => toC (gluon.thermal.zero_momentum.polarization_quark_t_thermal_part_zero_temp_landau_i k q om mq mu)) (Ioi 0) :=
  (dom_zm_quark one_pos ho k : Dom 1 fun beta q => toC (gluon.thermal.zero_momentum.polarization_quark_t_thermal_part_landau_i k q om mq beta mu)).limit_integrable mq mu
    fun _ hq hF => C48_gluon_thermal_zero_momentum_polarization_quark_t hq k om mq mu hF

/-! ### C72: thermal parts -/

/-- **C72**: `ghost::thermal::self_energy_thermal_part_landau_w_method` vanishes at zero temperature. -/
theorem C72_ghost_thermal_self_energy {om : ℝ} (ho : om ≠ 0) {m : ℝ} (hm : m ≠ 0) (p : ℝ) (integral : Integral ℝ) :
    Tendsto (fun beta => ghost.thermal.self_energy_thermal_part_landau_w_method .exact om p m beta integral) atTop (𝓝 0) := by
  simp only [C46_ghost_thermal_self_energy]
  exact (dom_ghost one_pos ho hm : Dom 1 fun beta q => ghost.thermal.self_energy_thermal_part_landau_i q om p m beta).tendsto_zero fun _ hq => C48_ghost_thermal_self_energy hq om p m

/-- **C72**: `gluon::thermal::polarization_glue_l_thermal_part_landau_w_method` vanishes at zero temperature. -/
theorem C72_gluon_thermal_polarization_glue_l {om : ℝ} (ho : om ≠ 0) {m : ℝ} (hm : m ≠ 0) (p : ℝ) (integral : Integral ℝ) :
    Tendsto (fun beta => gluon.thermal.polarization_glue_l_thermal_part_landau_w_method .exact om p m beta integral) atTop (𝓝 0) := by
  simp only [C46_gluon_thermal_polarization_glue_l]
  exact (dom_glue_l one_pos ho hm : Dom 1 fun beta q => gluon.thermal.polarization_glue_l_thermal_part_landau_i q om p m beta).tendsto_zero fun _ hq => C48_gluon_thermal_polarization_glue_l hq om p m

/-- **C72**: `gluon::thermal::polarization_glue_t_thermal_part_landau_w_method` vanishes at zero temperature. -/
theorem C72_gluon_thermal_polarization_glue_t {om : ℝ} (ho : om ≠ 0) {m : ℝ} (hm : m ≠ 0) (p : ℝ) (integral : Integral ℝ) :
    Tendsto (fun beta => gluon.thermal.polarization_glue_t_thermal_part_landau_w_method .exact om p m beta integral) atTop (𝓝 0) := by
  simp only [C46_gluon_thermal_polarization_glue_t]
  exact (dom_glue_t one_pos ho hm : Dom 1 fun beta q => gluon.thermal.polarization_glue_t_thermal_part_landau_i q om p m beta).tendsto_zero fun _ hq => C48_gluon_thermal_polarization_glue_t hq om p m

/-- **C72**: `gluon::thermal::polarization_quark_l_thermal_part_landau_w_method` tends to its zero-temperature version. -/
theorem C72_gluon_thermal_polarization_quark_l {om : ℝ} (ho : om ≠ 0) (k : Consts ℝ) (p mq mu : ℝ) (integral : Integral ℝ) :
    Tendsto (fun beta => gluon.thermal.polarization_quark_l_thermal_part_landau_w_method .exact k om p mq beta mu integral) atTop
      (𝓝 (gluon.thermal.polarization_quark_l_thermal_part_zero_temp_landau_w_method .exact k om p mq mu integral)) := by
  have e : ∀ beta, _ := fun beta => C46_gluon_thermal_polarization_quark_l (k := k) (om := om) (p := p) (mq := mq) (beta := beta) (mu := mu) (integral := integral)
  simp only [e, C47_gluon_thermal_polarization_quark_l_zero_temp]
  exact (dom_quark_l one_pos ho k : Dom 1 fun beta q => gluon.thermal.polarization_quark_l_thermal_part_landau_i k q om p mq beta mu).tendsto_fermi mq mu
    fun _ hq hF => C48_gluon_thermal_polarization_quark_l hq k om p mq mu hF

/-- **C72**: `gluon::thermal::polarization_quark_t_thermal_part_landau_w_method` tends to its zero-temperature version. -/
theorem C72_gluon_thermal_polarization_quark_t {om : ℝ} (ho : om ≠ 0) (k : Consts ℝ) (p mq mu : ℝ) (integral : Integral ℝ) :
    Tendsto (fun beta => gluon.thermal.polarization_quark_t_thermal_part_landau_w_method .exact k om p mq beta mu integral) atTop
      (𝓝 (gluon.thermal.polarization_quark_t_thermal_part_zero_temp_landau_w_method .exact k om p mq mu integral)) := by
  have e : ∀ beta, _ := fun beta => C46_gluon_thermal_polarization_quark_t (k := k) (om := om) (p := p) (mq := mq) (beta := beta) (mu := mu) (integral := integral)
  simp only [e, C47_gluon_thermal_polarization_quark_t_zero_temp]
  exact (dom_quark_t one_pos ho k : Dom 1 fun beta q => gluon.thermal.polarization_quark_t_thermal_part_landau_i k q om p mq beta mu).tendsto_fermi mq mu
    fun _ hq hF => C48_gluon_thermal_polarization_quark_t hq k om p mq mu hF

/-- **C72**: `ghost::thermal::zero_momentum::self_energy_thermal_part_landau_w_method` vanishes at zero temperature. -/
theorem C72_ghost_thermal_zero_momentum_self_energy {om : ℝ} (ho : om ≠ 0) {m : ℝ} (hm : m ≠ 0) (integral : Integral ℝ) :
    Tendsto (fun beta => ghost.thermal.zero_momentum.self_energy_thermal_part_landau_w_method .exact om m beta integral) atTop (𝓝 0) := by
  simp only [C46_ghost_thermal_zero_momentum_self_energy]
  exact (dom_zm_ghost one_pos ho hm : Dom 1 fun beta q => ghost.thermal.zero_momentum.self_energy_thermal_part_landau_i q om m beta).tendsto_zero fun _ hq => C48_ghost_thermal_zero_momentum_self_energy hq om m

/-- **C72**: `gluon::thermal::zero_momentum::polarization_glue_l_thermal_part_landau_w_method` vanishes at zero temperature. -/
theorem C72_gluon_thermal_zero_momentum_polarization_glue_l {om : ℝ} (ho : om ≠ 0) {m : ℝ} (hm : m ≠ 0) (integral : Integral ℝ) :
    Tendsto (fun beta => gluon.thermal.zero_momentum.polarization_glue_l_thermal_part_landau_w_method .exact om m beta integral) atTop (𝓝 0) := by
  simp only [C46_gluon_thermal_zero_momentum_polarization_glue_l]
  exact (dom_zm_glue_l one_pos ho hm : Dom 1 fun beta q => gluon.thermal.zero_momentum.polarization_glue_l_thermal_part_landau_i q om m beta).tendsto_zero fun _ hq => C48_gluon_thermal_zero_momentum_polarization_glue_l hq om m

/-- **C72**: `gluon::thermal::zero_momentum::polarization_glue_t_thermal_part_landau_w_method` vanishes at zero temperature. -/
theorem C72_gluon_thermal_zero_momentum_polarization_glue_t {om : ℝ} (ho : om ≠ 0) {m : ℝ} (hm : m ≠ 0) (integral : Integral ℝ) :
    Tendsto (fun beta => gluon.thermal.zero_momentum.polarization_glue_t_thermal_part_landau_w_method .exact om m beta integral) atTop (𝓝 0) := by
  simp only [C46_gluon_thermal_zero_momentum_polarization_glue_t]
  exact (dom_zm_glue_l one_pos ho hm : Dom 1 fun beta q => gluon.thermal.zero_momentum.polarization_glue_t_thermal_part_landau_i q om m beta).tendsto_zero fun _ hq => C48_gluon_thermal_zero_momentum_polarization_glue_t hq om m

/-- **C72**: `gluon::thermal::zero_momentum::polarization_quark_l_thermal_part_landau_w_method` tends to its zero-temperature version. -/
theorem C72_gluon_thermal_zero_momentum_polarization_quark_l {om : ℝ} (ho : om ≠ 0) (k : Consts ℝ) (mq mu : ℝ) (integral : Integral ℝ) :
    Tendsto (fun beta => gluon.thermal.zero_momentum.polarization_quark_l_thermal_part_landau_w_method .exact k om mq beta mu integral) atTop
      (𝓝 (gluon.thermal.zero_momentum.polarization_quark_l_thermal_part_zero_temp_landau_w_method .exact k om mq mu integral)) := by
  have e : ∀ beta, _ := fun beta => C46_gluon_thermal_zero_momentum_polarization_quark_l (k := k) (om := om) (mq := mq) (beta := beta) (mu := mu) (integral := integral)
  simp only [e, C47_gluon_thermal_zero_momentum_polarization_quark_l_zero_temp]
  exact (dom_zm_quark one_pos ho k : Dom 1 fun beta q => toC (gluon.thermal.zero_momentum.polarization_quark_l_thermal_part_landau_i k q om mq beta mu)).tendsto_fermi mq mu
    fun _ hq hF => C48_gluon_thermal_zero_momentum_polarization_quark_l hq k om mq mu hF

/-- **C72**: `gluon::thermal::zero_momentum::polarization_quark_t_thermal_part_landau_w_method` tends to its zero-temperature version. -/
theorem C72_gluon_thermal_zero_momentum_polarization_quark_t {om : ℝ} (ho : om ≠ 0) (k : Consts ℝ) (mq mu : ℝ) (integral : Integral ℝ) :
    Tendsto (fun beta => gluon.thermal.zero_momentum.polarization_quark_t_thermal_part_landau_w_method .exact k om mq beta mu integral) atTop
      (𝓝 (gluon.thermal.zero_momentum.polarization_quark_t_thermal_part_zero_temp_landau_w_method .exact k om mq mu integral)) := by
  have e : ∀ beta, _ := fun beta => C46_gluon_thermal_zero_momentum_polarization_quark_t (k := k) (om := om) (mq := mq) (beta := beta) (mu := mu) (integral := integral)
  simp only [e, C47_gluon_thermal_zero_momentum_polarization_quark_t_zero_temp]
  exact (dom_zm_quark one_pos ho k : Dom 1 fun beta q => toC (gluon.thermal.zero_momentum.polarization_quark_t_thermal_part_landau_i k q om mq beta mu)).tendsto_fermi mq mu
    fun _ hq hF => C48_gluon_thermal_zero_momentum_polarization_quark_t hq k om mq mu hF

/-- **C73**: the integrand of `gluon::thermal::zero_matsubara::polarization_glue_l_thermal_part_landau_w_method` is integrable. -/
theorem C73_gluon_thermal_zero_matsubara_polarization_glue_l (k : Consts ℝ) (hr : k.matsubara_reg ≠ 0) {m : ℝ} (hm : m ≠ 0) (p : ℝ) {beta : ℝ} (hb : 0 < beta) :
    IntegrableOn (fun q => (gluon.thermal.polarization_glue_l_thermal_part_landau_i q k.matsubara_reg p m beta).re) (Ioi 0) ∧
    IntervalIntegrable (fun t => (gluon.thermal.polarization_glue_l_thermal_part_landau_i ((1 - t) / t) k.matsubara_reg p m beta).re / (t * t)) volume 0 1 := by
  have h : IntegrableOn (fun q => (gluon.thermal.polarization_glue_l_thermal_part_landau_i q k.matsubara_reg p m beta).re) (Ioi 0) :=
    Complex.reCLM.integrable_comp (Dom.integrable hb (dom_glue_l hb hr hm) le_rfl)
  exact ⟨h, (C46_integrable_real _).2 h⟩

/-- **C72**: `gluon::thermal::zero_matsubara::polarization_glue_l_thermal_part_landau_w_method` vanishes at zero temperature. -/
theorem C72_gluon_thermal_zero_matsubara_polarization_glue_l (k : Consts ℝ) (hr : k.matsubara_reg ≠ 0) {m : ℝ} (hm : m ≠ 0) (p : ℝ) (integral : Integral ℝ) :
    Tendsto (fun beta => gluon.thermal.zero_matsubara.polarization_glue_l_thermal_part_landau_w_method .exact k p m beta integral) atTop (𝓝 0) := by
  have e : ∀ᶠ beta in atTop, (∫ q in Ioi (0 : ℝ), gluon.thermal.polarization_glue_l_thermal_part_landau_i q k.matsubara_reg p m beta).re = gluon.thermal.zero_matsubara.polarization_glue_l_thermal_part_landau_w_method .exact k p m beta integral := by
    filter_upwards [eventually_gt_atTop 0] with beta hb
    rw [C46_gluon_thermal_zero_matsubara_polarization_glue_l, integral_re_Ioi]
    exact (C73_gluon_thermal_polarization_glue_l hr hm p hb).1
  refine Tendsto.congr' e ?_
  rw [← Complex.zero_re]
  refine (Complex.continuous_re.tendsto _).comp ?_
  exact (dom_glue_l one_pos hr hm : Dom 1 fun beta q => gluon.thermal.polarization_glue_l_thermal_part_landau_i q k.matsubara_reg p m beta).tendsto_zero
    fun _ hq => C48_gluon_thermal_polarization_glue_l hq _ _ m

/-- **C73**: the integrand of `gluon::thermal::zero_matsubara::polarization_glue_t_thermal_part_landau_w_method` is integrable. -/
theorem C73_gluon_thermal_zero_matsubara_polarization_glue_t (k : Consts ℝ) (hr : k.matsubara_reg ≠ 0) {m : ℝ} (hm : m ≠ 0) (p : ℝ) {beta : ℝ} (hb : 0 < beta) :
    IntegrableOn (fun q => (gluon.thermal.polarization_glue_t_thermal_part_landau_i q k.matsubara_reg p m beta).re) (Ioi 0) ∧
    IntervalIntegrable (fun t => (gluon.thermal.polarization_glue_t_thermal_part_landau_i ((1 - t) / t) k.matsubara_reg p m beta).re / (t * t)) volume 0 1 := by
  have h : IntegrableOn (fun q => (gluon.thermal.polarization_glue_t_thermal_part_landau_i q k.matsubara_reg p m beta).re) (Ioi 0) :=
    Complex.reCLM.integrable_comp (Dom.integrable hb (dom_glue_t hb hr hm) le_rfl)
  exact ⟨h, (C46_integrable_real _).2 h⟩

/-- **C72**: `gluon::thermal::zero_matsubara::polarization_glue_t_thermal_part_landau_w_method` vanishes at zero temperature. -/
theorem C72_gluon_thermal_zero_matsubara_polarization_glue_t (k : Consts ℝ) (hr : k.matsubara_reg ≠ 0) {m : ℝ} (hm : m ≠ 0) (p : ℝ) (integral : Integral ℝ) :
    Tendsto (fun beta => gluon.thermal.zero_matsubara.polarization_glue_t_thermal_part_landau_w_method .exact k p m beta integral) atTop (𝓝 0) := by
  have e : ∀ᶠ beta in atTop, (∫ q in Ioi (0 : ℝ), gluon.thermal.polarization_glue_t_thermal_part_landau_i q k.matsubara_reg p m beta).re = gluon.thermal.zero_matsubara.polarization_glue_t_thermal_part_landau_w_method .exact k p m beta integral := by
    filter_upwards [eventually_gt_atTop 0] with beta hb
    rw [C46_gluon_thermal_zero_matsubara_polarization_glue_t, integral_re_Ioi]
    exact (C73_gluon_thermal_polarization_glue_t hr hm p hb).1
  refine Tendsto.congr' e ?_
  rw [← Complex.zero_re]
  refine (Complex.continuous_re.tendsto _).comp ?_
  exact (dom_glue_t one_pos hr hm : Dom 1 fun beta q => gluon.thermal.polarization_glue_t_thermal_part_landau_i q k.matsubara_reg p m beta).tendsto_zero
    fun _ hq => C48_gluon_thermal_polarization_glue_t hq _ _ m

/-- **C73**: the integrand of `gluon::thermal::zero_matsubara::polarization_quark_l_thermal_part_landau_w_method` is integrable. -/
theorem C73_gluon_thermal_zero_matsubara_polarization_quark_l (k : Consts ℝ) (hr : k.matsubara_reg ≠ 0) (p mq mu : ℝ) {beta : ℝ} (hb : 0 < beta) :
    IntegrableOn (fun q => (gluon.thermal.polarization_quark_l_thermal_part_landau_i k q k.matsubara_reg p mq beta mu).re) (Ioi 0) ∧
    IntervalIntegrable (fun t => (gluon.thermal.polarization_quark_l_thermal_part_landau_i k ((1 - t) / t) k.matsubara_reg p mq beta mu).re / (t * t)) volume 0 1 := by
  have h : IntegrableOn (fun q => (gluon.thermal.polarization_quark_l_thermal_part_landau_i k q k.matsubara_reg p mq beta mu).re) (Ioi 0) :=
    Complex.reCLM.integrable_comp (Dom.integrable hb (dom_quark_l hb hr k) le_rfl)
  exact ⟨h, (C46_integrable_real _).2 h⟩

/-- **C72**: `gluon::thermal::zero_matsubara::polarization_quark_l_thermal_part_landau_w_method` tends to its zero-temperature version. -/
theorem C72_gluon_thermal_zero_matsubara_polarization_quark_l (k : Consts ℝ) (hr : k.matsubara_reg ≠ 0) (p mq mu : ℝ) (integral : Integral ℝ) :
    Tendsto (fun beta => gluon.thermal.zero_matsubara.polarization_quark_l_thermal_part_landau_w_method .exact k p mq beta mu integral) atTop (𝓝 (gluon.thermal.zero_matsubara.polarization_quark_l_thermal_part_zero_temp_landau_w_method .exact k p mq mu integral)) := by
  have e : ∀ᶠ beta in atTop, (∫ q in Ioi (0 : ℝ), gluon.thermal.polarization_quark_l_thermal_part_landau_i k q k.matsubara_reg p mq beta mu).re = gluon.thermal.zero_matsubara.polarization_quark_l_thermal_part_landau_w_method .exact k p mq beta mu integral := by
    filter_upwards [eventually_gt_atTop 0] with beta hb
    rw [C46_gluon_thermal_zero_matsubara_polarization_quark_l, integral_re_Ioi]
    exact (C73_gluon_thermal_polarization_quark_l hr k p mq mu hb).1
  refine Tendsto.congr' e ?_
  rw [C47_gluon_thermal_zero_matsubara_polarization_quark_l_zero_temp,
    integral_re_Ioi (C73_gluon_thermal_polarization_quark_l_zero_temp hr k p mq mu)]
  refine (Complex.continuous_re.tendsto _).comp ?_
  exact (dom_quark_l one_pos hr k : Dom 1 fun beta q => gluon.thermal.polarization_quark_l_thermal_part_landau_i k q k.matsubara_reg p mq beta mu).tendsto_fermi mq mu
    fun _ hq hF => C48_gluon_thermal_polarization_quark_l hq k _ _ mq mu hF

/-- **C73**: the integrand of `gluon::thermal::zero_matsubara::polarization_quark_t_thermal_part_landau_w_method` is integrable. -/
theorem C73_gluon_thermal_zero_matsubara_polarization_quark_t (k : Consts ℝ) (hr : k.matsubara_reg ≠ 0) (p mq mu : ℝ) {beta : ℝ} (hb : 0 < beta) :
    IntegrableOn (fun q => (gluon.thermal.polarization_quark_t_thermal_part_landau_i k q k.matsubara_reg p mq beta mu).re) (Ioi 0) ∧
    IntervalIntegrable (fun t => (gluon.thermal.polarization_quark_t_thermal_part_landau_i k ((1 - t) / t) k.matsubara_reg p mq beta mu).re / (t * t)) volume 0 1 := by
  have h : IntegrableOn (fun q => (gluon.thermal.polarization_quark_t_thermal_part_landau_i k q k.matsubara_reg p mq beta mu).re) (Ioi 0) :=
    Complex.reCLM.integrable_comp (Dom.integrable hb (dom_quark_t hb hr k) le_rfl)
  exact ⟨h, (C46_integrable_real _).2 h⟩

/-- **C72**: `gluon::thermal::zero_matsubara::polarization_quark_t_thermal_part_landau_w_method` tends to its zero-temperature version. -/
theorem C72_gluon_thermal_zero_matsubara_polarization_quark_t (k : Consts ℝ) (hr : k.matsubara_reg ≠ 0) (p mq mu : ℝ) (integral : Integral ℝ) :
    Tendsto (fun beta => gluon.thermal.zero_matsubara.polarization_quark_t_thermal_part_landau_w_method .exact k p mq beta mu integral) atTop (𝓝 (gluon.thermal.zero_matsubara.polarization_quark_t_thermal_part_zero_temp_landau_w_method .exact k p mq mu integral)) := by
  have e : ∀ᶠ beta in atTop, (∫ q in Ioi (0 : ℝ), gluon.thermal.polarization_quark_t_thermal_part_landau_i k q k.matsubara_reg p mq beta mu).re = gluon.thermal.zero_matsubara.polarization_quark_t_thermal_part_landau_w_method .exact k p mq beta mu integral := by
    filter_upwards [eventually_gt_atTop 0] with beta hb
    rw [C46_gluon_thermal_zero_matsubara_polarization_quark_t, integral_re_Ioi]
    exact (C73_gluon_thermal_polarization_quark_t hr k p mq mu hb).1
  refine Tendsto.congr' e ?_
  rw [C47_gluon_thermal_zero_matsubara_polarization_quark_t_zero_temp,
    integral_re_Ioi (C73_gluon_thermal_polarization_quark_t_zero_temp hr k p mq mu)]
  refine (Complex.continuous_re.tendsto _).comp ?_
  exact (dom_quark_t one_pos hr k : Dom 1 fun beta q => gluon.thermal.polarization_quark_t_thermal_part_landau_i k q k.matsubara_reg p mq beta mu).tendsto_fermi mq mu
    fun _ hq hF => C48_gluon_thermal_polarization_quark_t hq k _ _ mq mu hF

/-! ### C72: Yang-Mills theory -/

/-- **C72**: `ym::thermal::ghost::dressing_inv_landau` tends to the vacuum inverse dressing function. -/
theorem C72_ym_thermal_ghost_dressing_inv {om : ℝ} (ho : om ≠ 0) {m : ℝ} (hm : m ≠ 0) (p : ℝ) (k : Consts ℝ) (g0 : ℝ) :
    Tendsto (fun beta => ym.thermal.ghost.dressing_inv_landau .exact k om p m beta g0) atTop
      (𝓝 ((ghost.dressing_inv_landau ((om * om + p * p) / (m * m)) g0 : ℝ) : ℂ)) := by
  have hS := C72_ghost_thermal_self_energy ho hm p (get_default_integration_method k)
  simp only [ym.thermal.ghost.dressing_inv_landau, ghost.thermal.self_energy_thermal_part_landau, toC_real, ofR_real]
  have := tendsto_const_nhds (x := ((ghost.dressing_inv_landau ((om * om + p * p) / (m * m)) g0 : ℝ) : ℂ)) (f := (atTop : Filter ℝ))
  simpa using this.add (hS.const_mul (((((om * om + p * p)⁻¹ * PREFACTOR : ℝ)) : ℂ)))

/-- **C72**: `ym::thermal::ghost::propagator_landau` tends to the vacuum propagator. The latter is a function of the dimensionless
momentum and in units of the mass. -/
theorem C72_ym_thermal_ghost_propagator {om : ℝ} (ho : om ≠ 0) {m : ℝ} (hm : m ≠ 0) (p : ℝ) (k : Consts ℝ) (g0 : ℝ)
    (hV : ghost.dressing_inv_landau ((om * om + p * p) / (m * m)) g0 ≠ 0) :
    Tendsto (fun beta => ym.thermal.ghost.propagator_landau .exact k om p m beta g0) atTop
      (𝓝 ((ghost.propagator_landau ((om * om + p * p) / (m * m)) g0 / (m * m) : ℝ) : ℂ)) := by
  have h := C72_ym_thermal_ghost_dressing_inv ho hm p k g0
  have h2 := (h.inv₀ (Complex.ofReal_ne_zero.2 hV)).const_mul (((om * om + p * p)⁻¹ : ℝ) : ℂ)
  simp only [ym.thermal.ghost.propagator_landau, ym.thermal.ghost.dressing_landau, toC_real, ofR_real, ofR_complex, Complex.ofReal_one, one_div]
  refine tendsto_nhds_congr_right h2 ?_
  simp only [ghost.propagator_landau, ghost.dressing_landau]
  have hmc : (m : ℂ) ≠ 0 := Complex.ofReal_ne_zero.2 hm
  push_cast
  field_simp

/-- **C72**: `ym::thermal::zero_momentum::ghost::dressing_inv_landau` tends to the vacuum inverse dressing function. -/
theorem C72_ym_thermal_zero_momentum_ghost_dressing_inv {om : ℝ} (ho : om ≠ 0) {m : ℝ} (hm : m ≠ 0) (k : Consts ℝ) (g0 : ℝ) :
    Tendsto (fun beta => ym.thermal.zero_momentum.ghost.dressing_inv_landau .exact k om m beta g0) atTop
      (𝓝 ((ghost.dressing_inv_landau ((om * om) / (m * m)) g0 : ℝ) : ℂ)) := by
  have hS := C72_ghost_thermal_zero_momentum_self_energy ho hm (get_default_integration_method k)
  simp only [ym.thermal.zero_momentum.ghost.dressing_inv_landau, ghost.thermal.zero_momentum.self_energy_thermal_part_landau, toC_real, ofR_real]
  have := tendsto_const_nhds (x := ((ghost.dressing_inv_landau ((om * om) / (m * m)) g0 : ℝ) : ℂ)) (f := (atTop : Filter ℝ))
  simpa using this.add (hS.const_mul (((((om * om)⁻¹ * PREFACTOR : ℝ)) : ℂ)))

/-- **C72**: `ym::thermal::zero_momentum::ghost::propagator_landau` tends to the vacuum propagator. The latter is a function of the dimensionless
momentum and in units of the mass. -/
theorem C72_ym_thermal_zero_momentum_ghost_propagator {om : ℝ} (ho : om ≠ 0) {m : ℝ} (hm : m ≠ 0) (k : Consts ℝ) (g0 : ℝ)
    (hV : ghost.dressing_inv_landau ((om * om) / (m * m)) g0 ≠ 0) :
    Tendsto (fun beta => ym.thermal.zero_momentum.ghost.propagator_landau .exact k om m beta g0) atTop
      (𝓝 ((ghost.propagator_landau ((om * om) / (m * m)) g0 / (m * m) : ℝ) : ℂ)) := by
  have h := C72_ym_thermal_zero_momentum_ghost_dressing_inv ho hm k g0
  have h2 := (h.inv₀ (Complex.ofReal_ne_zero.2 hV)).const_mul (((om * om)⁻¹ : ℝ) : ℂ)
  simp only [ym.thermal.zero_momentum.ghost.propagator_landau, ym.thermal.zero_momentum.ghost.dressing_landau, toC_real, ofR_real, ofR_complex, Complex.ofReal_one, one_div]
  refine tendsto_nhds_congr_right h2 ?_
  simp only [ghost.propagator_landau, ghost.dressing_landau]
  have hmc : (m : ℂ) ≠ 0 := Complex.ofReal_ne_zero.2 hm
  push_cast
  field_simp

/-- **C72**: `ym::thermal::gluon::dressing_l_inv_landau` tends to the vacuum inverse dressing function. -/
theorem C72_ym_thermal_gluon_dressing_l_inv {om : ℝ} (ho : om ≠ 0) {m : ℝ} (hm : m ≠ 0) (p : ℝ) (k : Consts ℝ) (f0 : ℝ) :
    Tendsto (fun beta => ym.thermal.gluon.dressing_l_inv_landau .exact k om p m beta f0) atTop
      (𝓝 ((ym.gluon.dressing_inv_landau ((om * om + p * p) / (m * m)) f0 : ℝ) : ℂ)) := by
  have hS := C72_gluon_thermal_polarization_glue_l ho hm p (get_default_integration_method k)
  simp only [ym.thermal.gluon.dressing_l_inv_landau, gluon.thermal.polarization_glue_l_thermal_part_landau, toC_real, ofR_real]
  have := tendsto_const_nhds (x := ((ym.gluon.dressing_inv_landau ((om * om + p * p) / (m * m)) f0 : ℝ) : ℂ)) (f := (atTop : Filter ℝ))
  simpa using this.sub (hS.const_mul (((((om * om + p * p)⁻¹ * PREFACTOR : ℝ)) : ℂ)))

/-- **C72**: `ym::thermal::gluon::propagator_l_landau` tends to the vacuum propagator. The latter is a function of the dimensionless
momentum and in units of the mass. -/
theorem C72_ym_thermal_gluon_propagator_l {om : ℝ} (ho : om ≠ 0) {m : ℝ} (hm : m ≠ 0) (p : ℝ) (k : Consts ℝ) (f0 : ℝ)
    (hV : ym.gluon.dressing_inv_landau ((om * om + p * p) / (m * m)) f0 ≠ 0) :
    Tendsto (fun beta => ym.thermal.gluon.propagator_l_landau .exact k om p m beta f0) atTop
      (𝓝 ((ym.gluon.propagator_landau ((om * om + p * p) / (m * m)) f0 / (m * m) : ℝ) : ℂ)) := by
  have h := C72_ym_thermal_gluon_dressing_l_inv ho hm p k f0
  have h2 := (h.inv₀ (Complex.ofReal_ne_zero.2 hV)).const_mul (((om * om + p * p)⁻¹ : ℝ) : ℂ)
  simp only [ym.thermal.gluon.propagator_l_landau, ym.thermal.gluon.dressing_l_landau, toC_real, ofR_real, ofR_complex, Complex.ofReal_one, one_div]
  refine tendsto_nhds_congr_right h2 ?_
  simp only [ym.gluon.propagator_landau, ym.gluon.dressing_landau]
  have hmc : (m : ℂ) ≠ 0 := Complex.ofReal_ne_zero.2 hm
  push_cast
  field_simp

/-- **C72**: `ym::thermal::zero_momentum::gluon::dressing_l_inv_landau` tends to the vacuum inverse dressing function. -/
theorem C72_ym_thermal_zero_momentum_gluon_dressing_l_inv {om : ℝ} (ho : om ≠ 0) {m : ℝ} (hm : m ≠ 0) (k : Consts ℝ) (f0 : ℝ) :
    Tendsto (fun beta => ym.thermal.zero_momentum.gluon.dressing_l_inv_landau .exact k om m beta f0) atTop
      (𝓝 ((ym.gluon.dressing_inv_landau ((om * om) / (m * m)) f0 : ℝ) : ℂ)) := by
  have hS := C72_gluon_thermal_zero_momentum_polarization_glue_l ho hm (get_default_integration_method k)
  simp only [ym.thermal.zero_momentum.gluon.dressing_l_inv_landau, gluon.thermal.zero_momentum.polarization_glue_l_thermal_part_landau, toC_real, ofR_real]
  have := tendsto_const_nhds (x := ((ym.gluon.dressing_inv_landau ((om * om) / (m * m)) f0 : ℝ) : ℂ)) (f := (atTop : Filter ℝ))
  simpa using this.sub (hS.const_mul (((((om * om)⁻¹ * PREFACTOR : ℝ)) : ℂ)))

/-- **C72**: `ym::thermal::zero_momentum::gluon::propagator_l_landau` tends to the vacuum propagator. The latter is a function of the dimensionless
momentum and in units of the mass. -/
theorem C72_ym_thermal_zero_momentum_gluon_propagator_l {om : ℝ} (ho : om ≠ 0) {m : ℝ} (hm : m ≠ 0) (k : Consts ℝ) (f0 : ℝ)
    (hV : ym.gluon.dressing_inv_landau ((om * om) / (m * m)) f0 ≠ 0) :
    Tendsto (fun beta => ym.thermal.zero_momentum.gluon.propagator_l_landau .exact k om m beta f0) atTop
      (𝓝 ((ym.gluon.propagator_landau ((om * om) / (m * m)) f0 / (m * m) : ℝ) : ℂ)) := by
  have h := C72_ym_thermal_zero_momentum_gluon_dressing_l_inv ho hm k f0
  have h2 := (h.inv₀ (Complex.ofReal_ne_zero.2 hV)).const_mul (((om * om)⁻¹ : ℝ) : ℂ)
  simp only [ym.thermal.zero_momentum.gluon.propagator_l_landau, ym.thermal.zero_momentum.gluon.dressing_l_landau, toC_real, ofR_real, ofR_complex, Complex.ofReal_one, one_div]
  refine tendsto_nhds_congr_right h2 ?_
  simp only [ym.gluon.propagator_landau, ym.gluon.dressing_landau]
  have hmc : (m : ℂ) ≠ 0 := Complex.ofReal_ne_zero.2 hm
  push_cast
  field_simp

/-- **C72**: `ym::thermal::gluon::dressing_t_inv_landau` tends to the vacuum inverse dressing function. -/
theorem C72_ym_thermal_gluon_dressing_t_inv {om : ℝ} (ho : om ≠ 0) {m : ℝ} (hm : m ≠ 0) (p : ℝ) (k : Consts ℝ) (f0 : ℝ) :
    Tendsto (fun beta => ym.thermal.gluon.dressing_t_inv_landau .exact k om p m beta f0) atTop
      (𝓝 ((ym.gluon.dressing_inv_landau ((om * om + p * p) / (m * m)) f0 : ℝ) : ℂ)) := by
  have hS := C72_gluon_thermal_polarization_glue_t ho hm p (get_default_integration_method k)
  simp only [ym.thermal.gluon.dressing_t_inv_landau, gluon.thermal.polarization_glue_t_thermal_part_landau, toC_real, ofR_real]
  have := tendsto_const_nhds (x := ((ym.gluon.dressing_inv_landau ((om * om + p * p) / (m * m)) f0 : ℝ) : ℂ)) (f := (atTop : Filter ℝ))
  simpa using this.sub (hS.const_mul (((((om * om + p * p)⁻¹ * PREFACTOR : ℝ)) : ℂ)))

/-- **C72**: `ym::thermal::gluon::propagator_t_landau` tends to the vacuum propagator. The latter is a function of the dimensionless
momentum and in units of the mass. -/
theorem C72_ym_thermal_gluon_propagator_t {om : ℝ} (ho : om ≠ 0) {m : ℝ} (hm : m ≠ 0) (p : ℝ) (k : Consts ℝ) (f0 : ℝ)
    (hV : ym.gluon.dressing_inv_landau ((om * om + p * p) / (m * m)) f0 ≠ 0) :
    Tendsto (fun beta => ym.thermal.gluon.propagator_t_landau .exact k om p m beta f0) atTop
      (𝓝 ((ym.gluon.propagator_landau ((om * om + p * p) / (m * m)) f0 / (m * m) : ℝ) : ℂ)) := by
  have h := C72_ym_thermal_gluon_dressing_t_inv ho hm p k f0
  have h2 := (h.inv₀ (Complex.ofReal_ne_zero.2 hV)).const_mul (((om * om + p * p)⁻¹ : ℝ) : ℂ)
  simp only [ym.thermal.gluon.propagator_t_landau, ym.thermal.gluon.dressing_t_landau, toC_real, ofR_real, ofR_complex, Complex.ofReal_one, one_div]
  refine tendsto_nhds_congr_right h2 ?_
  simp only [ym.gluon.propagator_landau, ym.gluon.dressing_landau]
  have hmc : (m : ℂ) ≠ 0 := Complex.ofReal_ne_zero.2 hm
  push_cast
  field_simp

/-- **C72**: `ym::thermal::zero_momentum::gluon::dressing_t_inv_landau` tends to the vacuum inverse dressing function. -/
theorem C72_ym_thermal_zero_momentum_gluon_dressing_t_inv {om : ℝ} (ho : om ≠ 0) {m : ℝ} (hm : m ≠ 0) (k : Consts ℝ) (f0 : ℝ) :
    Tendsto (fun beta => ym.thermal.zero_momentum.gluon.dressing_t_inv_landau .exact k om m beta f0) atTop
      (𝓝 ((ym.gluon.dressing_inv_landau ((om * om) / (m * m)) f0 : ℝ) : ℂ)) := by
  have hS := C72_gluon_thermal_zero_momentum_polarization_glue_l ho hm (get_default_integration_method k)
  simp only [ym.thermal.zero_momentum.gluon.dressing_t_inv_landau, gluon.thermal.zero_momentum.polarization_glue_t_thermal_part_landau, ym.thermal.zero_momentum.gluon.dressing_l_inv_landau, gluon.thermal.zero_momentum.polarization_glue_l_thermal_part_landau, toC_real, ofR_real]
  have := tendsto_const_nhds (x := ((ym.gluon.dressing_inv_landau ((om * om) / (m * m)) f0 : ℝ) : ℂ)) (f := (atTop : Filter ℝ))
  simpa using this.sub (hS.const_mul (((((om * om)⁻¹ * PREFACTOR : ℝ)) : ℂ)))

/-- **C72**: `ym::thermal::zero_momentum::gluon::propagator_t_landau` tends to the vacuum propagator. The latter is a function of the dimensionless
momentum and in units of the mass. -/
theorem C72_ym_thermal_zero_momentum_gluon_propagator_t {om : ℝ} (ho : om ≠ 0) {m : ℝ} (hm : m ≠ 0) (k : Consts ℝ) (f0 : ℝ)
    (hV : ym.gluon.dressing_inv_landau ((om * om) / (m * m)) f0 ≠ 0) :
    Tendsto (fun beta => ym.thermal.zero_momentum.gluon.propagator_t_landau .exact k om m beta f0) atTop
      (𝓝 ((ym.gluon.propagator_landau ((om * om) / (m * m)) f0 / (m * m) : ℝ) : ℂ)) := by
  have h := C72_ym_thermal_zero_momentum_gluon_dressing_t_inv ho hm k f0
  have h2 := (h.inv₀ (Complex.ofReal_ne_zero.2 hV)).const_mul (((om * om)⁻¹ : ℝ) : ℂ)
  simp only [ym.thermal.zero_momentum.gluon.propagator_t_landau, ym.thermal.zero_momentum.gluon.dressing_t_landau, toC_real, ofR_real, ofR_complex, Complex.ofReal_one, one_div]
  refine tendsto_nhds_congr_right h2 ?_
  simp only [ym.gluon.propagator_landau, ym.gluon.dressing_landau]
  have hmc : (m : ℂ) ≠ 0 := Complex.ofReal_ne_zero.2 hm
  push_cast
  field_simp

/-- **C72**: `ym::thermal::zero_matsubara::gluon::dressing_l_inv_landau` tends to the vacuum inverse dressing function. -/
theorem C72_ym_thermal_zero_matsubara_gluon_dressing_l_inv (k : Consts ℝ) (hr : k.matsubara_reg ≠ 0) {m : ℝ} (hm : m ≠ 0) (p f0 : ℝ) :
    Tendsto (fun beta => ym.thermal.zero_matsubara.gluon.dressing_l_inv_landau .exact k p m beta f0) atTop (𝓝 (ym.gluon.dressing_inv_landau (p * p / (m * m)) f0)) := by
  have hS := C72_gluon_thermal_zero_matsubara_polarization_glue_l k hr hm p (zero_matsubara_default_method k)
  simp only [ym.thermal.zero_matsubara.gluon.dressing_l_inv_landau, gluon.thermal.zero_matsubara.polarization_glue_l_thermal_part_landau]
  have := tendsto_const_nhds (x := ym.gluon.dressing_inv_landau (p * p / (m * m)) f0) (f := (atTop : Filter ℝ))
  simpa using this.sub ((hS.const_mul PREFACTOR).div_const (p * p))

/-- **C72**: `ym::thermal::zero_matsubara::gluon::propagator_l_landau` tends to the vacuum propagator in units of the mass. -/
theorem C72_ym_thermal_zero_matsubara_gluon_propagator_l (k : Consts ℝ) (hr : k.matsubara_reg ≠ 0) {m : ℝ} (hm : m ≠ 0) (p f0 : ℝ)
    (hV : ym.gluon.dressing_inv_landau (p * p / (m * m)) f0 ≠ 0) :
    Tendsto (fun beta => ym.thermal.zero_matsubara.gluon.propagator_l_landau .exact k p m beta f0) atTop
      (𝓝 (ym.gluon.propagator_landau (p * p / (m * m)) f0 / (m * m))) := by
  have h := ((C72_ym_thermal_zero_matsubara_gluon_dressing_l_inv k hr hm p f0).inv₀ hV).div_const (p * p)
  simp only [ym.thermal.zero_matsubara.gluon.propagator_l_landau, ym.thermal.zero_matsubara.gluon.dressing_l_landau, one_div]
  refine tendsto_nhds_congr_right h ?_
  simp only [ym.gluon.propagator_landau, ym.gluon.dressing_landau]
  field_simp

/-- **C72**: `ym::thermal::zero_matsubara::gluon::dressing_t_inv_landau` tends to the vacuum inverse dressing function. -/
theorem C72_ym_thermal_zero_matsubara_gluon_dressing_t_inv (k : Consts ℝ) (hr : k.matsubara_reg ≠ 0) {m : ℝ} (hm : m ≠ 0) (p f0 : ℝ) :
    Tendsto (fun beta => ym.thermal.zero_matsubara.gluon.dressing_t_inv_landau .exact k p m beta f0) atTop (𝓝 (ym.gluon.dressing_inv_landau (p * p / (m * m)) f0)) := by
  have hS := C72_gluon_thermal_zero_matsubara_polarization_glue_t k hr hm p (zero_matsubara_default_method k)
  simp only [ym.thermal.zero_matsubara.gluon.dressing_t_inv_landau, gluon.thermal.zero_matsubara.polarization_glue_t_thermal_part_landau]
  have := tendsto_const_nhds (x := ym.gluon.dressing_inv_landau (p * p / (m * m)) f0) (f := (atTop : Filter ℝ))
  simpa using this.sub ((hS.const_mul PREFACTOR).div_const (p * p))

/-- **C72**: `ym::thermal::zero_matsubara::gluon::propagator_t_landau` tends to the vacuum propagator in units of the mass. -/
theorem C72_ym_thermal_zero_matsubara_gluon_propagator_t (k : Consts ℝ) (hr : k.matsubara_reg ≠ 0) {m : ℝ} (hm : m ≠ 0) (p f0 : ℝ)
    (hV : ym.gluon.dressing_inv_landau (p * p / (m * m)) f0 ≠ 0) :
    Tendsto (fun beta => ym.thermal.zero_matsubara.gluon.propagator_t_landau .exact k p m beta f0) atTop
      (𝓝 (ym.gluon.propagator_landau (p * p / (m * m)) f0 / (m * m))) := by
  have h := ((C72_ym_thermal_zero_matsubara_gluon_dressing_t_inv k hr hm p f0).inv₀ hV).div_const (p * p)
  simp only [ym.thermal.zero_matsubara.gluon.propagator_t_landau, ym.thermal.zero_matsubara.gluon.dressing_t_landau, one_div]
  refine tendsto_nhds_congr_right h ?_
  simp only [ym.gluon.propagator_landau, ym.gluon.dressing_landau]
  field_simp

/-! ### C72: QCD -/

/-- **C72**: `qcd::thermal::gluon::dressing_l_inv_landau` tends to its zero-temperature version. -/
theorem C72_qcd_thermal_gluon_dressing_l_inv {om : ℝ} (ho : om ≠ 0) (k : Consts ℝ) {m : ℝ} (hm : m ≠ 0) (p : ℝ) (mq mu f0 : ℝ) :
    Tendsto (fun beta => qcd.thermal.gluon.dressing_l_inv_landau .exact k om p m mq beta mu f0) atTop (𝓝 (qcd.thermal.gluon.dressing_l_inv_zero_temp_landau .exact k om p m mq mu f0)) := by
  have hG := C72_gluon_thermal_polarization_glue_l ho hm p (get_default_integration_method k)
  have hQ := C72_gluon_thermal_polarization_quark_l ho k p mq mu (get_default_integration_method k)
  simp only [qcd.thermal.gluon.dressing_l_inv_landau, qcd.thermal.gluon.dressing_l_inv_zero_temp_landau, gluon.thermal.polarization_glue_l_thermal_part_landau, gluon.thermal.polarization_quark_l_thermal_part_landau, gluon.thermal.polarization_quark_l_thermal_part_zero_temp_landau, toC_real, ofR_real, ofR_complex, toC_complex]
  refine tendsto_nhds_congr_right (tendsto_const_nhds.sub ((hG.add (hQ.const_mul ((k.nf : ℝ) : ℂ))).const_mul _)) ?_
  push_cast
  ring

/-- **C72**: `qcd::thermal::gluon::propagator_l_landau` tends to its zero-temperature version. -/
theorem C72_qcd_thermal_gluon_propagator_l {om : ℝ} (ho : om ≠ 0) (k : Consts ℝ) {m : ℝ} (hm : m ≠ 0) (p : ℝ) (mq mu f0 : ℝ)
    (hV : qcd.thermal.gluon.dressing_l_inv_zero_temp_landau .exact k om p m mq mu f0 ≠ 0) :
    Tendsto (fun beta => qcd.thermal.gluon.propagator_l_landau .exact k om p m mq beta mu f0) atTop (𝓝 (qcd.thermal.gluon.propagator_l_zero_temp_landau .exact k om p m mq mu f0)) := by
  have h := (C72_qcd_thermal_gluon_dressing_l_inv ho k hm p mq mu f0).inv₀ hV
  simp only [qcd.thermal.gluon.propagator_l_landau, qcd.thermal.gluon.propagator_l_zero_temp_landau, qcd.thermal.gluon.dressing_l_landau, qcd.thermal.gluon.dressing_l_zero_temp_landau, one_div]
  exact h.const_mul _

/-- **C72**: `qcd::thermal::gluon::dressing_l_inv_landau_w_field_config` tends to its zero-temperature version. -/
theorem C72_qcd_thermal_gluon_dressing_l_inv_w_field_config {om : ℝ} (ho : om ≠ 0) (k : Consts ℝ) (p : ℝ) (mu f0 : ℝ) (config : FieldConfig) (hg : config.gluon ≠ 0) :
    Tendsto (fun beta => qcd.thermal.gluon.dressing_l_inv_landau_w_field_config .exact k om p beta mu f0 config) atTop (𝓝 (qcd.thermal.gluon.dressing_l_inv_zero_temp_landau_w_field_config .exact k om p mu f0 config)) := by
  have hG := C72_gluon_thermal_polarization_glue_l ho hg p (get_default_integration_method k)
  have hQ := tendsto_list_sum (x := (atTop : Filter ℝ)) (f := fun (qi : QuarkInternal) beta => gluon.thermal.polarization_quark_l_thermal_part_landau .exact k om p qi.mq beta mu * ((qi.nf : ℝ) : ℂ))
    (a := fun qi => gluon.thermal.polarization_quark_l_thermal_part_zero_temp_landau .exact k om p qi.mq mu * ((qi.nf : ℝ) : ℂ)) config.quarks_internal
    fun qi _ => (C72_gluon_thermal_polarization_quark_l ho k p qi.mq mu (get_default_integration_method k)).mul_const _
  simp only [gluon.thermal.polarization_quark_l_thermal_part_landau, gluon.thermal.polarization_quark_l_thermal_part_zero_temp_landau] at hQ
  simp only [qcd.thermal.gluon.dressing_l_inv_landau_w_field_config, qcd.thermal.gluon.dressing_l_inv_zero_temp_landau_w_field_config, gluon.thermal.polarization_glue_l_thermal_part_landau, gluon.thermal.polarization_quark_l_thermal_part_landau, gluon.thermal.polarization_quark_l_thermal_part_zero_temp_landau, toC_real, ofR_real, ofR_complex, toC_complex]
  refine tendsto_nhds_congr_right (tendsto_const_nhds.sub ((hG.add hQ).const_mul _)) ?_
  push_cast
  ring

/-- **C72**: `qcd::thermal::gluon::propagator_l_landau_w_field_config` tends to its zero-temperature version. -/
theorem C72_qcd_thermal_gluon_propagator_l_w_field_config {om : ℝ} (ho : om ≠ 0) (k : Consts ℝ) (p : ℝ) (mu f0 : ℝ) (config : FieldConfig) (hg : config.gluon ≠ 0)
    (hV : qcd.thermal.gluon.dressing_l_inv_zero_temp_landau_w_field_config .exact k om p mu f0 config ≠ 0) :
    Tendsto (fun beta => qcd.thermal.gluon.propagator_l_landau_w_field_config .exact k om p beta mu f0 config) atTop (𝓝 (qcd.thermal.gluon.propagator_l_zero_temp_landau_w_field_config .exact k om p mu f0 config)) := by
  have h := (C72_qcd_thermal_gluon_dressing_l_inv_w_field_config ho k p mu f0 config hg).inv₀ hV
  simp only [qcd.thermal.gluon.propagator_l_landau_w_field_config, qcd.thermal.gluon.propagator_l_zero_temp_landau_w_field_config, qcd.thermal.gluon.dressing_l_landau_w_field_config, qcd.thermal.gluon.dressing_l_zero_temp_landau_w_field_config, one_div]
  exact h.const_mul _

/-- **C72**: `qcd::thermal::gluon::dressing_t_inv_landau` tends to its zero-temperature version. -/
theorem C72_qcd_thermal_gluon_dressing_t_inv {om : ℝ} (ho : om ≠ 0) (k : Consts ℝ) {m : ℝ} (hm : m ≠ 0) (p : ℝ) (mq mu f0 : ℝ) :
    Tendsto (fun beta => qcd.thermal.gluon.dressing_t_inv_landau .exact k om p m mq beta mu f0) atTop (𝓝 (qcd.thermal.gluon.dressing_t_inv_zero_temp_landau .exact k om p m mq mu f0)) := by
  have hG := C72_gluon_thermal_polarization_glue_t ho hm p (get_default_integration_method k)
  have hQ := C72_gluon_thermal_polarization_quark_t ho k p mq mu (get_default_integration_method k)
  simp only [qcd.thermal.gluon.dressing_t_inv_landau, qcd.thermal.gluon.dressing_t_inv_zero_temp_landau, gluon.thermal.polarization_glue_t_thermal_part_landau, gluon.thermal.polarization_quark_t_thermal_part_landau, gluon.thermal.polarization_quark_t_thermal_part_zero_temp_landau, toC_real, ofR_real, ofR_complex, toC_complex]
  refine tendsto_nhds_congr_right (tendsto_const_nhds.sub ((hG.add (hQ.const_mul ((k.nf : ℝ) : ℂ))).const_mul _)) ?_
  push_cast
  ring

/-- **C72**: `qcd::thermal::gluon::propagator_t_landau` tends to its zero-temperature version. -/
theorem C72_qcd_thermal_gluon_propagator_t {om : ℝ} (ho : om ≠ 0) (k : Consts ℝ) {m : ℝ} (hm : m ≠ 0) (p : ℝ) (mq mu f0 : ℝ)
    (hV : qcd.thermal.gluon.dressing_t_inv_zero_temp_landau .exact k om p m mq mu f0 ≠ 0) :
    Tendsto (fun beta => qcd.thermal.gluon.propagator_t_landau .exact k om p m mq beta mu f0) atTop (𝓝 (qcd.thermal.gluon.propagator_t_zero_temp_landau .exact k om p m mq mu f0)) := by
  have h := (C72_qcd_thermal_gluon_dressing_t_inv ho k hm p mq mu f0).inv₀ hV
  simp only [qcd.thermal.gluon.propagator_t_landau, qcd.thermal.gluon.propagator_t_zero_temp_landau, qcd.thermal.gluon.dressing_t_landau, qcd.thermal.gluon.dressing_t_zero_temp_landau, one_div]
  exact h.const_mul _

/-- **C72**: `qcd::thermal::gluon::dressing_t_inv_landau_w_field_config` tends to its zero-temperature version. -/
theorem C72_qcd_thermal_gluon_dressing_t_inv_w_field_config {om : ℝ} (ho : om ≠ 0) (k : Consts ℝ) (p : ℝ) (mu f0 : ℝ) (config : FieldConfig) (hg : config.gluon ≠ 0) :
    Tendsto (fun beta => qcd.thermal.gluon.dressing_t_inv_landau_w_field_config .exact k om p beta mu f0 config) atTop (𝓝 (qcd.thermal.gluon.dressing_t_inv_zero_temp_landau_w_field_config .exact k om p mu f0 config)) := by
  have hG := C72_gluon_thermal_polarization_glue_t ho hg p (get_default_integration_method k)
  have hQ := tendsto_list_sum (x := (atTop : Filter ℝ)) (f := fun (qi : QuarkInternal) beta => gluon.thermal.polarization_quark_t_thermal_part_landau .exact k om p qi.mq beta mu * ((qi.nf : ℝ) : ℂ))
    (a := fun qi => gluon.thermal.polarization_quark_t_thermal_part_zero_temp_landau .exact k om p qi.mq mu * ((qi.nf : ℝ) : ℂ)) config.quarks_internal
    fun qi _ => (C72_gluon_thermal_polarization_quark_t ho k p qi.mq mu (get_default_integration_method k)).mul_const _
  simp only [gluon.thermal.polarization_quark_t_thermal_part_landau, gluon.thermal.polarization_quark_t_thermal_part_zero_temp_landau] at hQ
  simp only [qcd.thermal.gluon.dressing_t_inv_landau_w_field_config, qcd.thermal.gluon.dressing_t_inv_zero_temp_landau_w_field_config, gluon.thermal.polarization_glue_t_thermal_part_landau, gluon.thermal.polarization_quark_t_thermal_part_landau, gluon.thermal.polarization_quark_t_thermal_part_zero_temp_landau, toC_real, ofR_real, ofR_complex, toC_complex]
  refine tendsto_nhds_congr_right (tendsto_const_nhds.sub ((hG.add hQ).const_mul _)) ?_
  push_cast
  ring

/-- **C72**: `qcd::thermal::gluon::propagator_t_landau_w_field_config` tends to its zero-temperature version. -/
theorem C72_qcd_thermal_gluon_propagator_t_w_field_config {om : ℝ} (ho : om ≠ 0) (k : Consts ℝ) (p : ℝ) (mu f0 : ℝ) (config : FieldConfig) (hg : config.gluon ≠ 0)
    (hV : qcd.thermal.gluon.dressing_t_inv_zero_temp_landau_w_field_config .exact k om p mu f0 config ≠ 0) :
    Tendsto (fun beta => qcd.thermal.gluon.propagator_t_landau_w_field_config .exact k om p beta mu f0 config) atTop (𝓝 (qcd.thermal.gluon.propagator_t_zero_temp_landau_w_field_config .exact k om p mu f0 config)) := by
  have h := (C72_qcd_thermal_gluon_dressing_t_inv_w_field_config ho k p mu f0 config hg).inv₀ hV
  simp only [qcd.thermal.gluon.propagator_t_landau_w_field_config, qcd.thermal.gluon.propagator_t_zero_temp_landau_w_field_config, qcd.thermal.gluon.dressing_t_landau_w_field_config, qcd.thermal.gluon.dressing_t_zero_temp_landau_w_field_config, one_div]
  exact h.const_mul _

/-- **C72**: `qcd::thermal::zero_momentum::gluon::dressing_l_inv_landau` tends to its zero-temperature version. -/
theorem C72_qcd_thermal_zero_momentum_gluon_dressing_l_inv {om : ℝ} (ho : om ≠ 0) (k : Consts ℝ) {m : ℝ} (hm : m ≠ 0) (mq mu f0 : ℝ) :
    Tendsto (fun beta => qcd.thermal.zero_momentum.gluon.dressing_l_inv_landau .exact k om m mq beta mu f0) atTop (𝓝 (qcd.thermal.zero_momentum.gluon.dressing_l_inv_zero_temp_landau .exact k om m mq mu f0)) := by
  have hG := C72_gluon_thermal_zero_momentum_polarization_glue_l ho hm (get_default_integration_method k)
  have hQ := C72_gluon_thermal_zero_momentum_polarization_quark_l ho k mq mu (get_default_integration_method k)
  simp only [qcd.thermal.zero_momentum.gluon.dressing_l_inv_landau, qcd.thermal.zero_momentum.gluon.dressing_l_inv_zero_temp_landau, gluon.thermal.zero_momentum.polarization_glue_l_thermal_part_landau, gluon.thermal.zero_momentum.polarization_quark_l_thermal_part_landau, gluon.thermal.zero_momentum.polarization_quark_l_thermal_part_zero_temp_landau, toC_real, ofR_real, ofR_complex, toC_complex]
  refine tendsto_nhds_congr_right (tendsto_const_nhds.sub ((hG.add (hQ.const_mul ((k.nf : ℝ) : ℂ))).const_mul _)) ?_
  push_cast
  ring

/-- **C72**: `qcd::thermal::zero_momentum::gluon::propagator_l_landau` tends to its zero-temperature version. -/
theorem C72_qcd_thermal_zero_momentum_gluon_propagator_l {om : ℝ} (ho : om ≠ 0) (k : Consts ℝ) {m : ℝ} (hm : m ≠ 0) (mq mu f0 : ℝ)
    (hV : qcd.thermal.zero_momentum.gluon.dressing_l_inv_zero_temp_landau .exact k om m mq mu f0 ≠ 0) :
    Tendsto (fun beta => qcd.thermal.zero_momentum.gluon.propagator_l_landau .exact k om m mq beta mu f0) atTop (𝓝 (qcd.thermal.zero_momentum.gluon.propagator_l_zero_temp_landau .exact k om m mq mu f0)) := by
  have h := (C72_qcd_thermal_zero_momentum_gluon_dressing_l_inv ho k hm mq mu f0).inv₀ hV
  simp only [qcd.thermal.zero_momentum.gluon.propagator_l_landau, qcd.thermal.zero_momentum.gluon.propagator_l_zero_temp_landau, qcd.thermal.zero_momentum.gluon.dressing_l_landau, qcd.thermal.zero_momentum.gluon.dressing_l_zero_temp_landau, one_div]
  exact h.const_mul _

/-- **C72**: `qcd::thermal::zero_momentum::gluon::dressing_l_inv_landau_w_field_config` tends to its zero-temperature version. -/
theorem C72_qcd_thermal_zero_momentum_gluon_dressing_l_inv_w_field_config {om : ℝ} (ho : om ≠ 0) (k : Consts ℝ) (mu f0 : ℝ) (config : FieldConfig) (hg : config.gluon ≠ 0) :
    Tendsto (fun beta => qcd.thermal.zero_momentum.gluon.dressing_l_inv_landau_w_field_config .exact k om beta mu f0 config) atTop (𝓝 (qcd.thermal.zero_momentum.gluon.dressing_l_inv_zero_temp_landau_w_field_config .exact k om mu f0 config)) := by
  have hG := C72_gluon_thermal_zero_momentum_polarization_glue_l ho hg (get_default_integration_method k)
  have hQ := tendsto_list_sum (x := (atTop : Filter ℝ)) (f := fun (qi : QuarkInternal) beta => gluon.thermal.zero_momentum.polarization_quark_l_thermal_part_landau .exact k om qi.mq beta mu * ((qi.nf : ℝ) : ℂ))
    (a := fun qi => gluon.thermal.zero_momentum.polarization_quark_l_thermal_part_zero_temp_landau .exact k om qi.mq mu * ((qi.nf : ℝ) : ℂ)) config.quarks_internal
    fun qi _ => (C72_gluon_thermal_zero_momentum_polarization_quark_l ho k qi.mq mu (get_default_integration_method k)).mul_const _
  simp only [gluon.thermal.zero_momentum.polarization_quark_l_thermal_part_landau, gluon.thermal.zero_momentum.polarization_quark_l_thermal_part_zero_temp_landau] at hQ
  simp only [qcd.thermal.zero_momentum.gluon.dressing_l_inv_landau_w_field_config, qcd.thermal.zero_momentum.gluon.dressing_l_inv_zero_temp_landau_w_field_config, gluon.thermal.zero_momentum.polarization_glue_l_thermal_part_landau, gluon.thermal.zero_momentum.polarization_quark_l_thermal_part_landau, gluon.thermal.zero_momentum.polarization_quark_l_thermal_part_zero_temp_landau, toC_real, ofR_real, ofR_complex, toC_complex]
  refine tendsto_nhds_congr_right (tendsto_const_nhds.sub ((hG.add hQ).const_mul _)) ?_
  push_cast
  ring

/-- **C72**: `qcd::thermal::zero_momentum::gluon::propagator_l_landau_w_field_config` tends to its zero-temperature version. -/
theorem C72_qcd_thermal_zero_momentum_gluon_propagator_l_w_field_config {om : ℝ} (ho : om ≠ 0) (k : Consts ℝ) (mu f0 : ℝ) (config : FieldConfig) (hg : config.gluon ≠ 0)
    (hV : qcd.thermal.zero_momentum.gluon.dressing_l_inv_zero_temp_landau_w_field_config .exact k om mu f0 config ≠ 0) :
    Tendsto (fun beta => qcd.thermal.zero_momentum.gluon.propagator_l_landau_w_field_config .exact k om beta mu f0 config) atTop (𝓝 (qcd.thermal.zero_momentum.gluon.propagator_l_zero_temp_landau_w_field_config .exact k om mu f0 config)) := by
  have h := (C72_qcd_thermal_zero_momentum_gluon_dressing_l_inv_w_field_config ho k mu f0 config hg).inv₀ hV
  simp only [qcd.thermal.zero_momentum.gluon.propagator_l_landau_w_field_config, qcd.thermal.zero_momentum.gluon.propagator_l_zero_temp_landau_w_field_config, qcd.thermal.zero_momentum.gluon.dressing_l_landau_w_field_config, qcd.thermal.zero_momentum.gluon.dressing_l_zero_temp_landau_w_field_config, one_div]
  exact h.const_mul _

/-- **C72**: `qcd::thermal::zero_momentum::gluon::dressing_t_inv_landau` tends to its zero-temperature version. -/
theorem C72_qcd_thermal_zero_momentum_gluon_dressing_t_inv {om : ℝ} (ho : om ≠ 0) (k : Consts ℝ) {m : ℝ} (hm : m ≠ 0) (mq mu f0 : ℝ) :
    Tendsto (fun beta => qcd.thermal.zero_momentum.gluon.dressing_t_inv_landau .exact k om m mq beta mu f0) atTop (𝓝 (qcd.thermal.zero_momentum.gluon.dressing_t_inv_zero_temp_landau .exact k om m mq mu f0)) := by
  have hG := C72_gluon_thermal_zero_momentum_polarization_glue_t ho hm (get_default_integration_method k)
  have hQ := C72_gluon_thermal_zero_momentum_polarization_quark_t ho k mq mu (get_default_integration_method k)
  simp only [qcd.thermal.zero_momentum.gluon.dressing_t_inv_landau, qcd.thermal.zero_momentum.gluon.dressing_t_inv_zero_temp_landau, gluon.thermal.zero_momentum.polarization_glue_t_thermal_part_landau, gluon.thermal.zero_momentum.polarization_quark_t_thermal_part_landau, gluon.thermal.zero_momentum.polarization_quark_t_thermal_part_zero_temp_landau, toC_real, ofR_real, ofR_complex, toC_complex]
  refine tendsto_nhds_congr_right (tendsto_const_nhds.sub ((hG.add (hQ.const_mul ((k.nf : ℝ) : ℂ))).const_mul _)) ?_
  push_cast
  ring

/-- **C72**: `qcd::thermal::zero_momentum::gluon::propagator_t_landau` tends to its zero-temperature version. -/
theorem C72_qcd_thermal_zero_momentum_gluon_propagator_t {om : ℝ} (ho : om ≠ 0) (k : Consts ℝ) {m : ℝ} (hm : m ≠ 0) (mq mu f0 : ℝ)
    (hV : qcd.thermal.zero_momentum.gluon.dressing_t_inv_zero_temp_landau .exact k om m mq mu f0 ≠ 0) :
    Tendsto (fun beta => qcd.thermal.zero_momentum.gluon.propagator_t_landau .exact k om m mq beta mu f0) atTop (𝓝 (qcd.thermal.zero_momentum.gluon.propagator_t_zero_temp_landau .exact k om m mq mu f0)) := by
  have h := (C72_qcd_thermal_zero_momentum_gluon_dressing_t_inv ho k hm mq mu f0).inv₀ hV
  simp only [qcd.thermal.zero_momentum.gluon.propagator_t_landau, qcd.thermal.zero_momentum.gluon.propagator_t_zero_temp_landau, qcd.thermal.zero_momentum.gluon.dressing_t_landau, qcd.thermal.zero_momentum.gluon.dressing_t_zero_temp_landau, one_div]
  exact h.const_mul _

/-- **C72**: `qcd::thermal::zero_momentum::gluon::dressing_t_inv_landau_w_field_config` tends to its zero-temperature version. -/
theorem C72_qcd_thermal_zero_momentum_gluon_dressing_t_inv_w_field_config {om : ℝ} (ho : om ≠ 0) (k : Consts ℝ) (mu f0 : ℝ) (config : FieldConfig) (hg : config.gluon ≠ 0) :
    Tendsto (fun beta => qcd.thermal.zero_momentum.gluon.dressing_t_inv_landau_w_field_config .exact k om beta mu f0 config) atTop (𝓝 (qcd.thermal.zero_momentum.gluon.dressing_t_inv_zero_temp_landau_w_field_config .exact k om mu f0 config)) := by
  have hG := C72_gluon_thermal_zero_momentum_polarization_glue_t ho hg (get_default_integration_method k)
  have hQ := tendsto_list_sum (x := (atTop : Filter ℝ)) (f := fun (qi : QuarkInternal) beta => gluon.thermal.zero_momentum.polarization_quark_t_thermal_part_landau .exact k om qi.mq beta mu * ((qi.nf : ℝ) : ℂ))
    (a := fun qi => gluon.thermal.zero_momentum.polarization_quark_t_thermal_part_zero_temp_landau .exact k om qi.mq mu * ((qi.nf : ℝ) : ℂ)) config.quarks_internal
    fun qi _ => (C72_gluon_thermal_zero_momentum_polarization_quark_t ho k qi.mq mu (get_default_integration_method k)).mul_const _
  simp only [gluon.thermal.zero_momentum.polarization_quark_t_thermal_part_landau, gluon.thermal.zero_momentum.polarization_quark_t_thermal_part_zero_temp_landau] at hQ
  simp only [qcd.thermal.zero_momentum.gluon.dressing_t_inv_landau_w_field_config, qcd.thermal.zero_momentum.gluon.dressing_t_inv_zero_temp_landau_w_field_config, gluon.thermal.zero_momentum.polarization_glue_t_thermal_part_landau, gluon.thermal.zero_momentum.polarization_quark_t_thermal_part_landau, gluon.thermal.zero_momentum.polarization_quark_t_thermal_part_zero_temp_landau, toC_real, ofR_real, ofR_complex, toC_complex]
  refine tendsto_nhds_congr_right (tendsto_const_nhds.sub ((hG.add hQ).const_mul _)) ?_
  push_cast
  ring

/-- **C72**: `qcd::thermal::zero_momentum::gluon::propagator_t_landau_w_field_config` tends to its zero-temperature version. -/
theorem C72_qcd_thermal_zero_momentum_gluon_propagator_t_w_field_config {om : ℝ} (ho : om ≠ 0) (k : Consts ℝ) (mu f0 : ℝ) (config : FieldConfig) (hg : config.gluon ≠ 0)
    (hV : qcd.thermal.zero_momentum.gluon.dressing_t_inv_zero_temp_landau_w_field_config .exact k om mu f0 config ≠ 0) :
    Tendsto (fun beta => qcd.thermal.zero_momentum.gluon.propagator_t_landau_w_field_config .exact k om beta mu f0 config) atTop (𝓝 (qcd.thermal.zero_momentum.gluon.propagator_t_zero_temp_landau_w_field_config .exact k om mu f0 config)) := by
  have h := (C72_qcd_thermal_zero_momentum_gluon_dressing_t_inv_w_field_config ho k mu f0 config hg).inv₀ hV
  simp only [qcd.thermal.zero_momentum.gluon.propagator_t_landau_w_field_config, qcd.thermal.zero_momentum.gluon.propagator_t_zero_temp_landau_w_field_config, qcd.thermal.zero_momentum.gluon.dressing_t_landau_w_field_config, qcd.thermal.zero_momentum.gluon.dressing_t_zero_temp_landau_w_field_config, one_div]
  exact h.const_mul _

/-- **C72**: `qcd::thermal::zero_matsubara::gluon::dressing_l_inv_landau` tends to its zero-temperature version. -/
theorem C72_qcd_thermal_zero_matsubara_gluon_dressing_l_inv (k : Consts ℝ) (hr : k.matsubara_reg ≠ 0) {m : ℝ} (hm : m ≠ 0) (p : ℝ) (mq mu f0 : ℝ) :
    Tendsto (fun beta => qcd.thermal.zero_matsubara.gluon.dressing_l_inv_landau .exact k p m mq beta mu f0) atTop (𝓝 (qcd.thermal.zero_matsubara.gluon.dressing_l_inv_zero_temp_landau .exact k p m mq mu f0)) := by
  have hG := C72_gluon_thermal_zero_matsubara_polarization_glue_l k hr hm p (zero_matsubara_default_method k)
  have hQ := C72_gluon_thermal_zero_matsubara_polarization_quark_l k hr p mq mu (zero_matsubara_default_method k)
  simp only [qcd.thermal.zero_matsubara.gluon.dressing_l_inv_landau, qcd.thermal.zero_matsubara.gluon.dressing_l_inv_zero_temp_landau, gluon.thermal.zero_matsubara.polarization_glue_l_thermal_part_landau, gluon.thermal.zero_matsubara.polarization_quark_l_thermal_part_landau, gluon.thermal.zero_matsubara.polarization_quark_l_thermal_part_zero_temp_landau, toC_real, ofR_real, ofR_complex, toC_complex]
  refine tendsto_nhds_congr_right (tendsto_const_nhds.sub ((((hQ.const_mul (k.nf : ℝ)).add hG).const_mul PREFACTOR).div_const (p * p))) ?_
  push_cast
  ring

/-- **C72**: `qcd::thermal::zero_matsubara::gluon::propagator_l_landau` tends to its zero-temperature version. -/
theorem C72_qcd_thermal_zero_matsubara_gluon_propagator_l (k : Consts ℝ) (hr : k.matsubara_reg ≠ 0) {m : ℝ} (hm : m ≠ 0) (p : ℝ) (mq mu f0 : ℝ)
    (hV : qcd.thermal.zero_matsubara.gluon.dressing_l_inv_zero_temp_landau .exact k p m mq mu f0 ≠ 0) :
    Tendsto (fun beta => qcd.thermal.zero_matsubara.gluon.propagator_l_landau .exact k p m mq beta mu f0) atTop (𝓝 (qcd.thermal.zero_matsubara.gluon.propagator_l_zero_temp_landau .exact k p m mq mu f0)) := by
  have h := (C72_qcd_thermal_zero_matsubara_gluon_dressing_l_inv k hr hm p mq mu f0).inv₀ hV
  simp only [qcd.thermal.zero_matsubara.gluon.propagator_l_landau, qcd.thermal.zero_matsubara.gluon.propagator_l_zero_temp_landau, qcd.thermal.zero_matsubara.gluon.dressing_l_landau, qcd.thermal.zero_matsubara.gluon.dressing_l_zero_temp_landau, one_div]
  exact h.div_const _

/-- **C72**: `qcd::thermal::zero_matsubara::gluon::dressing_l_inv_landau_w_field_config` tends to its zero-temperature version. -/
theorem C72_qcd_thermal_zero_matsubara_gluon_dressing_l_inv_w_field_config (k : Consts ℝ) (hr : k.matsubara_reg ≠ 0) (p : ℝ) (mu f0 : ℝ) (config : FieldConfig) (hg : config.gluon ≠ 0) :
    Tendsto (fun beta => qcd.thermal.zero_matsubara.gluon.dressing_l_inv_landau_w_field_config .exact k p beta mu f0 config) atTop (𝓝 (qcd.thermal.zero_matsubara.gluon.dressing_l_inv_zero_temp_landau_w_field_config .exact k p mu f0 config)) := by
  have hG := C72_gluon_thermal_zero_matsubara_polarization_glue_l k hr hg p (zero_matsubara_default_method k)
  have hQ := tendsto_list_sum (x := (atTop : Filter ℝ)) (f := fun (qi : QuarkInternal) beta => gluon.thermal.zero_matsubara.polarization_quark_l_thermal_part_landau .exact k p qi.mq beta mu * (qi.nf : ℝ))
    (a := fun qi => gluon.thermal.zero_matsubara.polarization_quark_l_thermal_part_zero_temp_landau .exact k p qi.mq mu * (qi.nf : ℝ)) config.quarks_internal
    fun qi _ => (C72_gluon_thermal_zero_matsubara_polarization_quark_l k hr p qi.mq mu (zero_matsubara_default_method k)).mul_const _
  simp only [gluon.thermal.zero_matsubara.polarization_quark_l_thermal_part_landau, gluon.thermal.zero_matsubara.polarization_quark_l_thermal_part_zero_temp_landau] at hQ
  simp only [qcd.thermal.zero_matsubara.gluon.dressing_l_inv_landau_w_field_config, qcd.thermal.zero_matsubara.gluon.dressing_l_inv_zero_temp_landau_w_field_config, gluon.thermal.zero_matsubara.polarization_glue_l_thermal_part_landau, gluon.thermal.zero_matsubara.polarization_quark_l_thermal_part_landau, gluon.thermal.zero_matsubara.polarization_quark_l_thermal_part_zero_temp_landau, toC_real, ofR_real, ofR_complex, toC_complex]
  refine tendsto_nhds_congr_right (tendsto_const_nhds.sub (((hG.add hQ).const_mul PREFACTOR).div_const (p * p))) ?_
  push_cast
  ring

/-- **C72**: `qcd::thermal::zero_matsubara::gluon::propagator_l_landau_w_field_config` tends to its zero-temperature version. -/
theorem C72_qcd_thermal_zero_matsubara_gluon_propagator_l_w_field_config (k : Consts ℝ) (hr : k.matsubara_reg ≠ 0) (p : ℝ) (mu f0 : ℝ) (config : FieldConfig) (hg : config.gluon ≠ 0)
    (hV : qcd.thermal.zero_matsubara.gluon.dressing_l_inv_zero_temp_landau_w_field_config .exact k p mu f0 config ≠ 0) :
    Tendsto (fun beta => qcd.thermal.zero_matsubara.gluon.propagator_l_landau_w_field_config .exact k p beta mu f0 config) atTop (𝓝 (qcd.thermal.zero_matsubara.gluon.propagator_l_zero_temp_landau_w_field_config .exact k p mu f0 config)) := by
  have h := (C72_qcd_thermal_zero_matsubara_gluon_dressing_l_inv_w_field_config k hr p mu f0 config hg).inv₀ hV
  simp only [qcd.thermal.zero_matsubara.gluon.propagator_l_landau_w_field_config, qcd.thermal.zero_matsubara.gluon.propagator_l_zero_temp_landau_w_field_config, qcd.thermal.zero_matsubara.gluon.dressing_l_landau_w_field_config, qcd.thermal.zero_matsubara.gluon.dressing_l_zero_temp_landau_w_field_config, one_div]
  exact h.div_const _

/-- **C72**: `qcd::thermal::zero_matsubara::gluon::dressing_t_inv_landau` tends to its zero-temperature version. -/
theorem C72_qcd_thermal_zero_matsubara_gluon_dressing_t_inv (k : Consts ℝ) (hr : k.matsubara_reg ≠ 0) {m : ℝ} (hm : m ≠ 0) (p : ℝ) (mq mu f0 : ℝ) :
    Tendsto (fun beta => qcd.thermal.zero_matsubara.gluon.dressing_t_inv_landau .exact k p m mq beta mu f0) atTop (𝓝 (qcd.thermal.zero_matsubara.gluon.dressing_t_inv_zero_temp_landau .exact k p m mq mu f0)) := by
  have hG := C72_gluon_thermal_zero_matsubara_polarization_glue_t k hr hm p (zero_matsubara_default_method k)
  have hQ := C72_gluon_thermal_zero_matsubara_polarization_quark_t k hr p mq mu (zero_matsubara_default_method k)
  simp only [qcd.thermal.zero_matsubara.gluon.dressing_t_inv_landau, qcd.thermal.zero_matsubara.gluon.dressing_t_inv_zero_temp_landau, gluon.thermal.zero_matsubara.polarization_glue_t_thermal_part_landau, gluon.thermal.zero_matsubara.polarization_quark_t_thermal_part_landau, gluon.thermal.zero_matsubara.polarization_quark_t_thermal_part_zero_temp_landau, toC_real, ofR_real, ofR_complex, toC_complex]
  refine tendsto_nhds_congr_right (tendsto_const_nhds.sub ((((hQ.const_mul (k.nf : ℝ)).add hG).const_mul PREFACTOR).div_const (p * p))) ?_
  push_cast
  ring

/-- **C72**: `qcd::thermal::zero_matsubara::gluon::propagator_t_landau` tends to its zero-temperature version. -/
theorem C72_qcd_thermal_zero_matsubara_gluon_propagator_t (k : Consts ℝ) (hr : k.matsubara_reg ≠ 0) {m : ℝ} (hm : m ≠ 0) (p : ℝ) (mq mu f0 : ℝ)
    (hV : qcd.thermal.zero_matsubara.gluon.dressing_t_inv_zero_temp_landau .exact k p m mq mu f0 ≠ 0) :
    Tendsto (fun beta => qcd.thermal.zero_matsubara.gluon.propagator_t_landau .exact k p m mq beta mu f0) atTop (𝓝 (qcd.thermal.zero_matsubara.gluon.propagator_t_zero_temp_landau .exact k p m mq mu f0)) := by
  have h := (C72_qcd_thermal_zero_matsubara_gluon_dressing_t_inv k hr hm p mq mu f0).inv₀ hV
  simp only [qcd.thermal.zero_matsubara.gluon.propagator_t_landau, qcd.thermal.zero_matsubara.gluon.propagator_t_zero_temp_landau, qcd.thermal.zero_matsubara.gluon.dressing_t_landau, qcd.thermal.zero_matsubara.gluon.dressing_t_zero_temp_landau, one_div]
  exact h.div_const _

/-- **C72**: `qcd::thermal::zero_matsubara::gluon::dressing_t_inv_landau_w_field_config` tends to its zero-temperature version. -/
theorem C72_qcd_thermal_zero_matsubara_gluon_dressing_t_inv_w_field_config (k : Consts ℝ) (hr : k.matsubara_reg ≠ 0) (p : ℝ) (mu f0 : ℝ) (config : FieldConfig) (hg : config.gluon ≠ 0) :
    Tendsto (fun beta => qcd.thermal.zero_matsubara.gluon.dressing_t_inv_landau_w_field_config .exact k p beta mu f0 config) atTop (𝓝 (qcd.thermal.zero_matsubara.gluon.dressing_t_inv_zero_temp_landau_w_field_config .exact k p mu f0 config)) := by
  have hG := C72_gluon_thermal_zero_matsubara_polarization_glue_t k hr hg p (zero_matsubara_default_method k)
  have hQ := tendsto_list_sum (x := (atTop : Filter ℝ)) (f := fun (qi : QuarkInternal) beta => gluon.thermal.zero_matsubara.polarization_quark_t_thermal_part_landau .exact k p qi.mq beta mu * (qi.nf : ℝ))
    (a := fun qi => gluon.thermal.zero_matsubara.polarization_quark_t_thermal_part_zero_temp_landau .exact k p qi.mq mu * (qi.nf : ℝ)) config.quarks_internal
    fun qi _ => (C72_gluon_thermal_zero_matsubara_polarization_quark_t k hr p qi.mq mu (zero_matsubara_default_method k)).mul_const _
  simp only [gluon.thermal.zero_matsubara.polarization_quark_t_thermal_part_landau, gluon.thermal.zero_matsubara.polarization_quark_t_thermal_part_zero_temp_landau] at hQ
  simp only [qcd.thermal.zero_matsubara.gluon.dressing_t_inv_landau_w_field_config, qcd.thermal.zero_matsubara.gluon.dressing_t_inv_zero_temp_landau_w_field_config, gluon.thermal.zero_matsubara.polarization_glue_t_thermal_part_landau, gluon.thermal.zero_matsubara.polarization_quark_t_thermal_part_landau, gluon.thermal.zero_matsubara.polarization_quark_t_thermal_part_zero_temp_landau, toC_real, ofR_real, ofR_complex, toC_complex]
  refine tendsto_nhds_congr_right (tendsto_const_nhds.sub (((hG.add hQ).const_mul PREFACTOR).div_const (p * p))) ?_
  push_cast
  ring

/-- **C72**: `qcd::thermal::zero_matsubara::gluon::propagator_t_landau_w_field_config` tends to its zero-temperature version. -/
theorem C72_qcd_thermal_zero_matsubara_gluon_propagator_t_w_field_config (k : Consts ℝ) (hr : k.matsubara_reg ≠ 0) (p : ℝ) (mu f0 : ℝ) (config : FieldConfig) (hg : config.gluon ≠ 0)
    (hV : qcd.thermal.zero_matsubara.gluon.dressing_t_inv_zero_temp_landau_w_field_config .exact k p mu f0 config ≠ 0) :
    Tendsto (fun beta => qcd.thermal.zero_matsubara.gluon.propagator_t_landau_w_field_config .exact k p beta mu f0 config) atTop (𝓝 (qcd.thermal.zero_matsubara.gluon.propagator_t_zero_temp_landau_w_field_config .exact k p mu f0 config)) := by
  have h := (C72_qcd_thermal_zero_matsubara_gluon_dressing_t_inv_w_field_config k hr p mu f0 config hg).inv₀ hV
  simp only [qcd.thermal.zero_matsubara.gluon.propagator_t_landau_w_field_config, qcd.thermal.zero_matsubara.gluon.propagator_t_zero_temp_landau_w_field_config, qcd.thermal.zero_matsubara.gluon.dressing_t_landau_w_field_config, qcd.thermal.zero_matsubara.gluon.dressing_t_zero_temp_landau_w_field_config, one_div]
  exact h.div_const _

/-! ### C72: below the quark threshold the limit is the vacuum -/

/-- **C72**: for `|mu| < |mq|` the limit of `qcd::thermal::gluon::dressing_l_inv_landau` is the vacuum inverse dressing function. -/
theorem C72_qcd_thermal_gluon_dressing_l_inv_vacuum {om : ℝ} (ho : om ≠ 0) (k : Consts ℝ) {m : ℝ} (hm : m ≠ 0) (p : ℝ) {mq mu : ℝ} (hmu : |mu| < |mq|) (f0 : ℝ) :
    Tendsto (fun beta => qcd.thermal.gluon.dressing_l_inv_landau .exact k om p m mq beta mu f0) atTop
      (𝓝 (((qcd.gluon.dressing_inv_landau k ((om * om + p * p) / (m * m)) (mq / m) f0 : ℝ) : ℂ))) := by
  refine tendsto_nhds_congr_right (C72_qcd_thermal_gluon_dressing_l_inv ho k hm p mq mu f0) ?_
  have h := (C47_below_threshold (T := ℝ) (T1 := ℝ) (T2 := ℝ) .exact k mq mu hmu (get_default_integration_method k)).1
  simp only [qcd.thermal.gluon.dressing_l_inv_zero_temp_landau, gluon.thermal.polarization_quark_l_thermal_part_zero_temp_landau, h, toC_real, ofR_real, mul_zero, sub_zero, zero_div]

/-- **C72**: the same for a configuration in which `|mu|` is below the mass of every quark. -/
theorem C72_qcd_thermal_gluon_dressing_l_inv_w_field_config_vacuum {om : ℝ} (ho : om ≠ 0) (k : Consts ℝ) (p : ℝ) (mu f0 : ℝ) (config : FieldConfig) (hg : config.gluon ≠ 0)
    (hmu : ∀ qi ∈ config.quarks_internal, |mu| < |qi.mq|) :
    Tendsto (fun beta => qcd.thermal.gluon.dressing_l_inv_landau_w_field_config .exact k om p beta mu f0 config) atTop
      (𝓝 (qcd.gluon.dressing_inv_landau_w_field_config k ((om * om + p * p : ℂ) / (config.gluon * config.gluon)) f0 config)) := by
  refine tendsto_nhds_congr_right (C72_qcd_thermal_gluon_dressing_l_inv_w_field_config ho k p mu f0 config hg) ?_
  have h : (config.quarks_internal.map fun qi => gluon.thermal.polarization_quark_l_thermal_part_zero_temp_landau .exact k om p qi.mq mu * (ofR (qi.nf : ℝ) : ℂ)).sum = 0 := by
    refine List.sum_eq_zero fun x hx => ?_
    obtain ⟨qi, hqi, rfl⟩ := List.mem_map.1 hx
    have h := (C47_below_threshold (T := ℝ) (T1 := ℝ) (T2 := ℝ) .exact k qi.mq mu (hmu qi hqi) (get_default_integration_method k)).1
    simp only [gluon.thermal.polarization_quark_l_thermal_part_zero_temp_landau, h, zero_mul]
  simp only [qcd.thermal.gluon.dressing_l_inv_zero_temp_landau_w_field_config]
  rw [h]
  simp only [toC_real, toC_complex, ofR_real, ofR_complex, mul_zero, sub_zero]; push_cast; rfl

/-- **C72**: for `|mu| < |mq|` the limit of `qcd::thermal::gluon::dressing_t_inv_landau` is the vacuum inverse dressing function. -/
theorem C72_qcd_thermal_gluon_dressing_t_inv_vacuum {om : ℝ} (ho : om ≠ 0) (k : Consts ℝ) {m : ℝ} (hm : m ≠ 0) (p : ℝ) {mq mu : ℝ} (hmu : |mu| < |mq|) (f0 : ℝ) :
    Tendsto (fun beta => qcd.thermal.gluon.dressing_t_inv_landau .exact k om p m mq beta mu f0) atTop
      (𝓝 (((qcd.gluon.dressing_inv_landau k ((om * om + p * p) / (m * m)) (mq / m) f0 : ℝ) : ℂ))) := by
  refine tendsto_nhds_congr_right (C72_qcd_thermal_gluon_dressing_t_inv ho k hm p mq mu f0) ?_
  have h := (C47_below_threshold (T := ℝ) (T1 := ℝ) (T2 := ℝ) .exact k mq mu hmu (get_default_integration_method k)).2.1
  simp only [qcd.thermal.gluon.dressing_t_inv_zero_temp_landau, gluon.thermal.polarization_quark_t_thermal_part_zero_temp_landau, h, toC_real, ofR_real, mul_zero, sub_zero, zero_div]

/-- **C72**: the same for a configuration in which `|mu|` is below the mass of every quark. -/
theorem C72_qcd_thermal_gluon_dressing_t_inv_w_field_config_vacuum {om : ℝ} (ho : om ≠ 0) (k : Consts ℝ) (p : ℝ) (mu f0 : ℝ) (config : FieldConfig) (hg : config.gluon ≠ 0)
    (hmu : ∀ qi ∈ config.quarks_internal, |mu| < |qi.mq|) :
    Tendsto (fun beta => qcd.thermal.gluon.dressing_t_inv_landau_w_field_config .exact k om p beta mu f0 config) atTop
      (𝓝 (((qcd.gluon.dressing_inv_landau_w_field_config k ((om * om + p * p) / (config.gluon * config.gluon)) f0 config : ℝ) : ℂ))) := by
  refine tendsto_nhds_congr_right (C72_qcd_thermal_gluon_dressing_t_inv_w_field_config ho k p mu f0 config hg) ?_
  have h : (config.quarks_internal.map fun qi => gluon.thermal.polarization_quark_t_thermal_part_zero_temp_landau .exact k om p qi.mq mu * (ofR (qi.nf : ℝ) : ℂ)).sum = 0 := by
    refine List.sum_eq_zero fun x hx => ?_
    obtain ⟨qi, hqi, rfl⟩ := List.mem_map.1 hx
    have h := (C47_below_threshold (T := ℝ) (T1 := ℝ) (T2 := ℝ) .exact k qi.mq mu (hmu qi hqi) (get_default_integration_method k)).2.1
    simp only [gluon.thermal.polarization_quark_t_thermal_part_zero_temp_landau, h, zero_mul]
  simp only [qcd.thermal.gluon.dressing_t_inv_zero_temp_landau_w_field_config]
  rw [h]
  simp only [toC_real, toC_complex, ofR_real, ofR_complex, mul_zero, sub_zero]

/-- **C72**: for `|mu| < |mq|` the limit of `qcd::thermal::zero_momentum::gluon::dressing_l_inv_landau` is the vacuum inverse dressing function. -/
theorem C72_qcd_thermal_zero_momentum_gluon_dressing_l_inv_vacuum {om : ℝ} (ho : om ≠ 0) (k : Consts ℝ) {m : ℝ} (hm : m ≠ 0) {mq mu : ℝ} (hmu : |mu| < |mq|) (f0 : ℝ) :
    Tendsto (fun beta => qcd.thermal.zero_momentum.gluon.dressing_l_inv_landau .exact k om m mq beta mu f0) atTop
      (𝓝 (((qcd.gluon.dressing_inv_landau k ((om * om) / (m * m)) (mq / m) f0 : ℝ) : ℂ))) := by
  refine tendsto_nhds_congr_right (C72_qcd_thermal_zero_momentum_gluon_dressing_l_inv ho k hm mq mu f0) ?_
  have h := (C47_below_threshold (T := ℝ) (T1 := ℝ) (T2 := ℝ) .exact k mq mu hmu (get_default_integration_method k)).2.2.1
  simp only [qcd.thermal.zero_momentum.gluon.dressing_l_inv_zero_temp_landau, gluon.thermal.zero_momentum.polarization_quark_l_thermal_part_zero_temp_landau, h, toC_real, ofR_real, mul_zero, sub_zero, zero_div]

/-- **C72**: the same for a configuration in which `|mu|` is below the mass of every quark. -/
theorem C72_qcd_thermal_zero_momentum_gluon_dressing_l_inv_w_field_config_vacuum {om : ℝ} (ho : om ≠ 0) (k : Consts ℝ) (mu f0 : ℝ) (config : FieldConfig) (hg : config.gluon ≠ 0)
    (hmu : ∀ qi ∈ config.quarks_internal, |mu| < |qi.mq|) :
    Tendsto (fun beta => qcd.thermal.zero_momentum.gluon.dressing_l_inv_landau_w_field_config .exact k om beta mu f0 config) atTop
      (𝓝 (((qcd.gluon.dressing_inv_landau_w_field_config k ((om * om) / (config.gluon * config.gluon)) f0 config : ℝ) : ℂ))) := by
  refine tendsto_nhds_congr_right (C72_qcd_thermal_zero_momentum_gluon_dressing_l_inv_w_field_config ho k mu f0 config hg) ?_
  have h : (config.quarks_internal.map fun qi => gluon.thermal.zero_momentum.polarization_quark_l_thermal_part_zero_temp_landau .exact k om qi.mq mu * (ofR (qi.nf : ℝ) : ℂ)).sum = 0 := by
    refine List.sum_eq_zero fun x hx => ?_
    obtain ⟨qi, hqi, rfl⟩ := List.mem_map.1 hx
    have h := (C47_below_threshold (T := ℝ) (T1 := ℝ) (T2 := ℝ) .exact k qi.mq mu (hmu qi hqi) (get_default_integration_method k)).2.2.1
    simp only [gluon.thermal.zero_momentum.polarization_quark_l_thermal_part_zero_temp_landau, h, zero_mul]
  simp only [qcd.thermal.zero_momentum.gluon.dressing_l_inv_zero_temp_landau_w_field_config]
  rw [h]
  simp only [toC_real, toC_complex, ofR_real, ofR_complex, mul_zero, sub_zero]

/-- **C72**: for `|mu| < |mq|` the limit of `qcd::thermal::zero_momentum::gluon::dressing_t_inv_landau` is the vacuum inverse dressing function. -/
theorem C72_qcd_thermal_zero_momentum_gluon_dressing_t_inv_vacuum {om : ℝ} (ho : om ≠ 0) (k : Consts ℝ) {m : ℝ} (hm : m ≠ 0) {mq mu : ℝ} (hmu : |mu| < |mq|) (f0 : ℝ) :
    Tendsto (fun beta => qcd.thermal.zero_momentum.gluon.dressing_t_inv_landau .exact k om m mq beta mu f0) atTop
      (𝓝 (((qcd.gluon.dressing_inv_landau k ((om * om) / (m * m)) (mq / m) f0 : ℝ) : ℂ))) := by
  refine tendsto_nhds_congr_right (C72_qcd_thermal_zero_momentum_gluon_dressing_t_inv ho k hm mq mu f0) ?_
  have h := (C47_below_threshold (T := ℝ) (T1 := ℝ) (T2 := ℝ) .exact k mq mu hmu (get_default_integration_method k)).2.2.2.1
  simp only [qcd.thermal.zero_momentum.gluon.dressing_t_inv_zero_temp_landau, gluon.thermal.zero_momentum.polarization_quark_t_thermal_part_zero_temp_landau, h, toC_real, ofR_real, mul_zero, sub_zero, zero_div]

/-- **C72**: the same for a configuration in which `|mu|` is below the mass of every quark. -/
theorem C72_qcd_thermal_zero_momentum_gluon_dressing_t_inv_w_field_config_vacuum {om : ℝ} (ho : om ≠ 0) (k : Consts ℝ) (mu f0 : ℝ) (config : FieldConfig) (hg : config.gluon ≠ 0)
    (hmu : ∀ qi ∈ config.quarks_internal, |mu| < |qi.mq|) :
    Tendsto (fun beta => qcd.thermal.zero_momentum.gluon.dressing_t_inv_landau_w_field_config .exact k om beta mu f0 config) atTop
      (𝓝 (((qcd.gluon.dressing_inv_landau_w_field_config k ((om * om) / (config.gluon * config.gluon)) f0 config : ℝ) : ℂ))) := by
  refine tendsto_nhds_congr_right (C72_qcd_thermal_zero_momentum_gluon_dressing_t_inv_w_field_config ho k mu f0 config hg) ?_
  have h : (config.quarks_internal.map fun qi => gluon.thermal.zero_momentum.polarization_quark_t_thermal_part_zero_temp_landau .exact k om qi.mq mu * (ofR (qi.nf : ℝ) : ℂ)).sum = 0 := by
    refine List.sum_eq_zero fun x hx => ?_
    obtain ⟨qi, hqi, rfl⟩ := List.mem_map.1 hx
    have h := (C47_below_threshold (T := ℝ) (T1 := ℝ) (T2 := ℝ) .exact k qi.mq mu (hmu qi hqi) (get_default_integration_method k)).2.2.2.1
    simp only [gluon.thermal.zero_momentum.polarization_quark_t_thermal_part_zero_temp_landau, h, zero_mul]
  simp only [qcd.thermal.zero_momentum.gluon.dressing_t_inv_zero_temp_landau_w_field_config]
  rw [h]
  simp only [toC_real, toC_complex, ofR_real, ofR_complex, mul_zero, sub_zero]

/-- **C72**: for `|mu| < |mq|` the limit of `qcd::thermal::zero_matsubara::gluon::dressing_l_inv_landau` is the vacuum inverse dressing function. -/
theorem C72_qcd_thermal_zero_matsubara_gluon_dressing_l_inv_vacuum (k : Consts ℝ) (hr : k.matsubara_reg ≠ 0) {m : ℝ} (hm : m ≠ 0) (p : ℝ) {mq mu : ℝ} (hmu : |mu| < |mq|) (f0 : ℝ) :
    Tendsto (fun beta => qcd.thermal.zero_matsubara.gluon.dressing_l_inv_landau .exact k p m mq beta mu f0) atTop
      (𝓝 (qcd.gluon.dressing_inv_landau k ((p * p) / (m * m)) (mq / m) f0)) := by
  refine tendsto_nhds_congr_right (C72_qcd_thermal_zero_matsubara_gluon_dressing_l_inv k hr hm p mq mu f0) ?_
  have h := (C47_below_threshold (T := ℝ) (T1 := ℝ) (T2 := ℝ) .exact k mq mu hmu (zero_matsubara_default_method k)).2.2.2.2.1
  simp only [qcd.thermal.zero_matsubara.gluon.dressing_l_inv_zero_temp_landau, gluon.thermal.zero_matsubara.polarization_quark_l_thermal_part_zero_temp_landau, h, toC_real, ofR_real, mul_zero, sub_zero, zero_div]

/-- **C72**: the same for a configuration in which `|mu|` is below the mass of every quark. -/
theorem C72_qcd_thermal_zero_matsubara_gluon_dressing_l_inv_w_field_config_vacuum (k : Consts ℝ) (hr : k.matsubara_reg ≠ 0) (p : ℝ) (mu f0 : ℝ) (config : FieldConfig) (hg : config.gluon ≠ 0)
    (hmu : ∀ qi ∈ config.quarks_internal, |mu| < |qi.mq|) :
    Tendsto (fun beta => qcd.thermal.zero_matsubara.gluon.dressing_l_inv_landau_w_field_config .exact k p beta mu f0 config) atTop
      (𝓝 (qcd.gluon.dressing_inv_landau_w_field_config k ((p * p) / (config.gluon * config.gluon)) f0 config)) := by
  refine tendsto_nhds_congr_right (C72_qcd_thermal_zero_matsubara_gluon_dressing_l_inv_w_field_config k hr p mu f0 config hg) ?_
  have h : (config.quarks_internal.map fun qi => gluon.thermal.zero_matsubara.polarization_quark_l_thermal_part_zero_temp_landau .exact k p qi.mq mu * (qi.nf : ℝ)).sum = 0 := by
    refine List.sum_eq_zero fun x hx => ?_
    obtain ⟨qi, hqi, rfl⟩ := List.mem_map.1 hx
    have h := (C47_below_threshold (T := ℝ) (T1 := ℝ) (T2 := ℝ) .exact k qi.mq mu (hmu qi hqi) (zero_matsubara_default_method k)).2.2.2.2.1
    simp only [gluon.thermal.zero_matsubara.polarization_quark_l_thermal_part_zero_temp_landau, h, zero_mul]
  simp only [qcd.thermal.zero_matsubara.gluon.dressing_l_inv_zero_temp_landau_w_field_config]
  rw [h]
  simp

/-- **C72**: for `|mu| < |mq|` the limit of `qcd::thermal::zero_matsubara::gluon::dressing_t_inv_landau` is the vacuum inverse dressing function. -/
theorem C72_qcd_thermal_zero_matsubara_gluon_dressing_t_inv_vacuum (k : Consts ℝ) (hr : k.matsubara_reg ≠ 0) {m : ℝ} (hm : m ≠ 0) (p : ℝ) {mq mu : ℝ} (hmu : |mu| < |mq|) (f0 : ℝ) :
    Tendsto (fun beta => qcd.thermal.zero_matsubara.gluon.dressing_t_inv_landau .exact k p m mq beta mu f0) atTop
      (𝓝 (qcd.gluon.dressing_inv_landau k ((p * p) / (m * m)) (mq / m) f0)) := by
  refine tendsto_nhds_congr_right (C72_qcd_thermal_zero_matsubara_gluon_dressing_t_inv k hr hm p mq mu f0) ?_
  have h := (C47_below_threshold (T := ℝ) (T1 := ℝ) (T2 := ℝ) .exact k mq mu hmu (zero_matsubara_default_method k)).2.2.2.2.2
  simp only [qcd.thermal.zero_matsubara.gluon.dressing_t_inv_zero_temp_landau, gluon.thermal.zero_matsubara.polarization_quark_t_thermal_part_zero_temp_landau, h, toC_real, ofR_real, mul_zero, sub_zero, zero_div]

/-- **C72**: the same for a configuration in which `|mu|` is below the mass of every quark. -/
theorem C72_qcd_thermal_zero_matsubara_gluon_dressing_t_inv_w_field_config_vacuum (k : Consts ℝ) (hr : k.matsubara_reg ≠ 0) (p : ℝ) (mu f0 : ℝ) (config : FieldConfig) (hg : config.gluon ≠ 0)
    (hmu : ∀ qi ∈ config.quarks_internal, |mu| < |qi.mq|) :
    Tendsto (fun beta => qcd.thermal.zero_matsubara.gluon.dressing_t_inv_landau_w_field_config .exact k p beta mu f0 config) atTop
      (𝓝 (qcd.gluon.dressing_inv_landau_w_field_config k ((p * p) / (config.gluon * config.gluon)) f0 config)) := by
  refine tendsto_nhds_congr_right (C72_qcd_thermal_zero_matsubara_gluon_dressing_t_inv_w_field_config k hr p mu f0 config hg) ?_
  have h : (config.quarks_internal.map fun qi => gluon.thermal.zero_matsubara.polarization_quark_t_thermal_part_zero_temp_landau .exact k p qi.mq mu * (qi.nf : ℝ)).sum = 0 := by
    refine List.sum_eq_zero fun x hx => ?_
    obtain ⟨qi, hqi, rfl⟩ := List.mem_map.1 hx
    have h := (C47_below_threshold (T := ℝ) (T1 := ℝ) (T2 := ℝ) .exact k qi.mq mu (hmu qi hqi) (zero_matsubara_default_method k)).2.2.2.2.2
    simp only [gluon.thermal.zero_matsubara.polarization_quark_t_thermal_part_zero_temp_landau, h, zero_mul]
  simp only [qcd.thermal.zero_matsubara.gluon.dressing_t_inv_zero_temp_landau_w_field_config]
  rw [h]
  simp

/-! ### Non-vacuity -/

/-- The regulator of the zero-Matsubara functions is not zero by default. -/
example : (consts.init : Consts ℝ).matsubara_reg ≠ 0 := by
  simp only [consts.init, consts.FloatOps.lit]; norm_num

/-- The vacuum inverse dressing functions vanish for exactly one value of the additive constant. -/
example (s : ℝ) : (∃ f0 : ℝ, ym.gluon.dressing_inv_landau s f0 ≠ 0) ∧ ∃ g0 : ℝ, ghost.dressing_inv_landau s g0 ≠ 0 :=
  ⟨⟨1 - gluon.f s, by simp [(C17_dressing_inv_affine s (1 - gluon.f s) 0 0).2.2.1]⟩,
    ⟨1 - ghost.g s, by simp [(C17_dressing_inv_affine s 0 (1 - ghost.g s) 0).1]⟩⟩

/-- A case with all hypotheses met: `om = p = m = 1`, `mq = 1/2`, `mu = 1/4`. -/
example (k : Consts ℝ) (f0 : ℝ) :
    Tendsto (fun beta => qcd.thermal.gluon.dressing_l_inv_landau .exact k (1 : ℝ) 1 1 (1 / 2) beta (1 / 4) f0) atTop
      (𝓝 ((qcd.gluon.dressing_inv_landau k ((1 * 1 + 1 * 1 : ℝ) / (1 * 1)) (1 / 2 / 1) f0 : ℝ) : ℂ)) :=
  C72_qcd_thermal_gluon_dressing_l_inv_vacuum one_ne_zero k one_ne_zero 1 (by norm_num [abs_of_pos]) f0

end Qcd
