import Verif.Lemmas.Analytic
import Verif.Lemmas.HolomorphicFull
import Verif.Lemmas.ThermalParity
import Verif.Model.ThermalDressing

/-! # C93: analytic structure of the thermal functions in the complex frequency

For a complex frequency off the imaginary axis. `Symmetric`: even in the frequency, and conjugating the frequency
conjugates the value. `Analytic`: moreover complex differentiable. The symmetries hold for every integrator that
evaluates the integrand inside the interval only and commutes with conjugation; holomorphy is a property of the
exact integral.

Generated by a script. -/

set_option linter.unusedSectionVars false
set_option linter.unusedVariables false

namespace Qcd
open consts (Consts Integral)
open MeasureTheory Set Complex
open Spec (Symmetric Analytic)
open scoped ComplexConjugate

/-! ### The integrands -/

theorem loop_ghost (p m beta : ℝ) (hm : m ≠ 0) (hb : 0 < beta) : Loop (Ioi 0) fun om q => ghost.thermal.self_energy_thermal_part_landau_i q om p m beta where
  hol c M hc := hol_ghost hc hb hm
  even om q := even_om_ghost_thermal_self_energy_thermal_part_landau_i q om p m beta
  real x q hq hx := by
    have e1 := toC_ghost_thermal_self_energy_thermal_part_landau_i q x p m beta
    have e2 := toC_ghost_thermal_self_energy_thermal_part_landau_i q (x : ℂ) p m beta
    rw [toC_real] at e1
    rw [e1.symm]
    exact Complex.conj_eq_iff_im.1 (conj_ghost_thermal_self_energy_thermal_part_landau_i q x p m beta hq hx)

theorem loop_glue_l (p m beta : ℝ) (hm : m ≠ 0) (hb : 0 < beta) : Loop (Ioi 0) fun om q => gluon.thermal.polarization_glue_l_thermal_part_landau_i q om p m beta where
  hol c M hc := hol_glue_l hc hb hm
  even om q := even_om_gluon_thermal_polarization_glue_l_thermal_part_landau_i q om p m beta
  real x q hq hx := by
    have e1 := toC_gluon_thermal_polarization_glue_l_thermal_part_landau_i q x p m beta
    have e2 := toC_gluon_thermal_polarization_glue_l_thermal_part_landau_i q (x : ℂ) p m beta
    rw [toC_real] at e1
    rw [e2.trans e1.symm]
    exact Complex.conj_eq_iff_im.1 (conj_gluon_thermal_polarization_glue_l_thermal_part_landau_i q x p m beta hq hx)

theorem loop_glue_t (p m beta : ℝ) (hm : m ≠ 0) (hb : 0 < beta) : Loop (Ioi 0) fun om q => gluon.thermal.polarization_glue_t_thermal_part_landau_i q om p m beta where
  hol c M hc := hol_glue_t hc hb hm
  even om q := even_om_gluon_thermal_polarization_glue_t_thermal_part_landau_i q om p m beta
  real x q hq hx := by
    have e1 := toC_gluon_thermal_polarization_glue_t_thermal_part_landau_i q x p m beta
    have e2 := toC_gluon_thermal_polarization_glue_t_thermal_part_landau_i q (x : ℂ) p m beta
    rw [toC_real] at e1
    rw [e1.symm]
    exact Complex.conj_eq_iff_im.1 (conj_gluon_thermal_polarization_glue_t_thermal_part_landau_i q x p m beta hq hx)

theorem loop_quark_l (k : Consts ℝ) (p mq beta mu : ℝ) (hb : 0 < beta) : Loop (Ioi 0) fun om q => gluon.thermal.polarization_quark_l_thermal_part_landau_i k q om p mq beta mu where
  hol c M hc := hol_quark_l hc hb k
  even om q := even_om_gluon_thermal_polarization_quark_l_thermal_part_landau_i k q om p mq beta mu
  real x q hq hx := by
    have e1 := toC_gluon_thermal_polarization_quark_l_thermal_part_landau_i k q x p mq beta mu
    have e2 := toC_gluon_thermal_polarization_quark_l_thermal_part_landau_i k q (x : ℂ) p mq beta mu
    rw [toC_real] at e1
    rw [e2.trans e1.symm]
    exact Complex.conj_eq_iff_im.1 (conj_gluon_thermal_polarization_quark_l_thermal_part_landau_i k q x p mq beta mu hq hx)

theorem loop_quark_t (k : Consts ℝ) (p mq beta mu : ℝ) (hb : 0 < beta) : Loop (Ioi 0) fun om q => gluon.thermal.polarization_quark_t_thermal_part_landau_i k q om p mq beta mu where
  hol c M hc := hol_quark_t hc hb k
  even om q := even_om_gluon_thermal_polarization_quark_t_thermal_part_landau_i k q om p mq beta mu
  real x q hq hx := by
    have e1 := toC_gluon_thermal_polarization_quark_t_thermal_part_landau_i k q x p mq beta mu
    have e2 := toC_gluon_thermal_polarization_quark_t_thermal_part_landau_i k q (x : ℂ) p mq beta mu
    rw [toC_real] at e1
    rw [e1.symm]
    exact Complex.conj_eq_iff_im.1 (conj_gluon_thermal_polarization_quark_t_thermal_part_landau_i k q x p mq beta mu hq hx)

theorem loop_quark_l0 (k : Consts ℝ) (p mq mu : ℝ) (x : ℝ) : Loop (Ioc 0 x) fun om q => gluon.thermal.polarization_quark_l_thermal_part_zero_temp_landau_i k q om p mq mu where
  hol c M hc := hol_quark_l_zero_temp hc k x
  even om q := even_om_gluon_thermal_polarization_quark_l_thermal_part_zero_temp_landau_i k q om p mq mu
  real x q hq hx := by
    have e1 := toC_gluon_thermal_polarization_quark_l_thermal_part_zero_temp_landau_i k q x p mq mu
    have e2 := toC_gluon_thermal_polarization_quark_l_thermal_part_zero_temp_landau_i k q (x : ℂ) p mq mu
    rw [toC_real] at e1
    rw [e2.trans e1.symm]
    exact Complex.conj_eq_iff_im.1 (conj_gluon_thermal_polarization_quark_l_thermal_part_zero_temp_landau_i k q x p mq mu hq hx)

theorem loop_quark_t0 (k : Consts ℝ) (p mq mu : ℝ) (x : ℝ) : Loop (Ioc 0 x) fun om q => gluon.thermal.polarization_quark_t_thermal_part_zero_temp_landau_i k q om p mq mu where
  hol c M hc := hol_quark_t_zero_temp hc k x
  even om q := even_om_gluon_thermal_polarization_quark_t_thermal_part_zero_temp_landau_i k q om p mq mu
  real x q hq hx := by
    have e1 := toC_gluon_thermal_polarization_quark_t_thermal_part_zero_temp_landau_i k q x p mq mu
    have e2 := toC_gluon_thermal_polarization_quark_t_thermal_part_zero_temp_landau_i k q (x : ℂ) p mq mu
    rw [toC_real] at e1
    rw [e1.symm]
    exact Complex.conj_eq_iff_im.1 (conj_gluon_thermal_polarization_quark_t_thermal_part_zero_temp_landau_i k q x p mq mu hq hx)

theorem loop_zm_ghost (m beta : ℝ) (hm : m ≠ 0) (hb : 0 < beta) : Loop (Ioi 0) fun om q => ghost.thermal.zero_momentum.self_energy_thermal_part_landau_i q om m beta where
  hol c M hc := hol_zm_ghost hc hb hm
  even om q := even_om_ghost_thermal_zero_momentum_self_energy_thermal_part_landau_i q om m beta
  real x q hq hx := by
    have e1 := toC_ghost_thermal_zero_momentum_self_energy_thermal_part_landau_i q x m beta
    have e2 := toC_ghost_thermal_zero_momentum_self_energy_thermal_part_landau_i q (x : ℂ) m beta
    rw [toC_real] at e1
    rw [e1.symm]
    exact Complex.conj_eq_iff_im.1 (conj_ghost_thermal_zero_momentum_self_energy_thermal_part_landau_i q x m beta hq hx)

theorem loop_zm_glue_l (m beta : ℝ) (hm : m ≠ 0) (hb : 0 < beta) : Loop (Ioi 0) fun om q => gluon.thermal.zero_momentum.polarization_glue_l_thermal_part_landau_i q om m beta where
  hol c M hc := hol_zm_glue_l hc hb hm
  even om q := even_om_gluon_thermal_zero_momentum_polarization_glue_l_thermal_part_landau_i q om m beta
  real x q hq hx := by
    have e1 := toC_gluon_thermal_zero_momentum_polarization_glue_l_thermal_part_landau_i q x m beta
    have e2 := toC_gluon_thermal_zero_momentum_polarization_glue_l_thermal_part_landau_i q (x : ℂ) m beta
    rw [toC_real] at e1
    rw [e1.symm]
    exact Complex.conj_eq_iff_im.1 (conj_gluon_thermal_zero_momentum_polarization_glue_l_thermal_part_landau_i q x m beta hq hx)

theorem loop_zm_glue_t (m beta : ℝ) (hm : m ≠ 0) (hb : 0 < beta) : Loop (Ioi 0) fun om q => gluon.thermal.zero_momentum.polarization_glue_t_thermal_part_landau_i q om m beta where
  hol c M hc := hol_zm_glue_l hc hb hm
  even om q := even_om_gluon_thermal_zero_momentum_polarization_glue_t_thermal_part_landau_i q om m beta
  real x q hq hx := by
    have e1 := toC_gluon_thermal_zero_momentum_polarization_glue_t_thermal_part_landau_i q x m beta
    have e2 := toC_gluon_thermal_zero_momentum_polarization_glue_t_thermal_part_landau_i q (x : ℂ) m beta
    rw [toC_real] at e1
    rw [e1.symm]
    exact Complex.conj_eq_iff_im.1 (conj_gluon_thermal_zero_momentum_polarization_glue_t_thermal_part_landau_i q x m beta hq hx)

theorem loop_zm_quark_l (k : Consts ℝ) (mq beta mu : ℝ) (hb : 0 < beta) : Loop (Ioi 0) fun om q => gluon.thermal.zero_momentum.polarization_quark_l_thermal_part_landau_i k q om mq beta mu where
  hol c M hc := hol_zm_quark hc hb k
  even om q := even_om_gluon_thermal_zero_momentum_polarization_quark_l_thermal_part_landau_i k q om mq beta mu
  real x q hq hx := by
    have h := toC_gluon_thermal_zero_momentum_polarization_quark_l_thermal_part_landau_i k q x mq beta mu
    rw [toC_real, toC_real] at h
    rw [← h, ofReal_im]

theorem loop_zm_quark_t (k : Consts ℝ) (mq beta mu : ℝ) (hb : 0 < beta) : Loop (Ioi 0) fun om q => gluon.thermal.zero_momentum.polarization_quark_t_thermal_part_landau_i k q om mq beta mu where
  hol c M hc := hol_zm_quark hc hb k
  even om q := even_om_gluon_thermal_zero_momentum_polarization_quark_t_thermal_part_landau_i k q om mq beta mu
  real x q hq hx := by
    have h := toC_gluon_thermal_zero_momentum_polarization_quark_t_thermal_part_landau_i k q x mq beta mu
    rw [toC_real, toC_real] at h
    rw [← h, ofReal_im]

theorem loop_zm_quark_l0 (k : Consts ℝ) (mq mu : ℝ) (x : ℝ) : Loop (Ioc 0 x) fun om q => gluon.thermal.zero_momentum.polarization_quark_l_thermal_part_zero_temp_landau_i k q om mq mu where
  hol c M hc := hol_zm_quark_zero_temp hc k x
  even om q := even_om_gluon_thermal_zero_momentum_polarization_quark_l_thermal_part_zero_temp_landau_i k q om mq mu
  real x q hq hx := by
    have h := toC_gluon_thermal_zero_momentum_polarization_quark_l_thermal_part_zero_temp_landau_i k q x mq mu
    rw [toC_real, toC_real] at h
    rw [← h, ofReal_im]

theorem loop_zm_quark_t0 (k : Consts ℝ) (mq mu : ℝ) (x : ℝ) : Loop (Ioc 0 x) fun om q => gluon.thermal.zero_momentum.polarization_quark_t_thermal_part_zero_temp_landau_i k q om mq mu where
  hol c M hc := hol_zm_quark_zero_temp hc k x
  even om q := even_om_gluon_thermal_zero_momentum_polarization_quark_t_thermal_part_zero_temp_landau_i k q om mq mu
  real x q hq hx := by
    have h := toC_gluon_thermal_zero_momentum_polarization_quark_t_thermal_part_zero_temp_landau_i k q x mq mu
    rw [toC_real, toC_real] at h
    rw [← h, ofReal_im]

/-! ### The integrals -/

/-- The two ways of integrating an integrand, both of which keep its symmetries. -/
structure Admissible (P : (ℂ → ℂ) → Prop) (ig : Integrator) : Prop extends Closed P where
  half : ∀ {F : ℂ → ℝ → ℂ}, Loop (Ioi 0) F → ∀ i, P fun om => ig.cplx (fun t => F om ((1 - t) / t) / ((t * t : ℝ) : ℂ)) (0, 1) i
  fin : ∀ {F : ℂ → ℝ → ℂ} {x : ℝ}, 0 ≤ x → Loop (Ioc 0 x) F → ∀ i, P fun om => ig.cplx (fun q => F om q) (0, x) i

theorem admissible_symmetric {ig : Integrator} (hi : ig.Interior) (hc : ig.Conj) : Admissible Symmetric ig :=
  ⟨closed_symmetric, fun h i => h.symmetric_Ioi hi hc i, fun hx h i => h.symmetric_Ioc hi hc hx i⟩

theorem admissible_analytic : Admissible Analytic .exact :=
  ⟨closed_analytic, fun h i => h.analytic_Ioi i, fun hx h i => h.analytic_Ioc hx i⟩

section
variable {P : (ℂ → ℂ) → Prop} {ig : Integrator} (hP : Admissible P ig)
include hP

theorem int_ghost (p m beta : ℝ) (hm : m ≠ 0) (hb : 0 < beta) (i : Integral ℝ) : P fun om => ghost.thermal.self_energy_thermal_part_landau_w_method ig om p m beta i := by
  simpa only [ghost.thermal.self_energy_thermal_part_landau_w_method, toC_complex, ofR_complex] using hP.half (loop_ghost p m beta hm hb) i

theorem int_glue_l (p m beta : ℝ) (hm : m ≠ 0) (hb : 0 < beta) (i : Integral ℝ) : P fun om => gluon.thermal.polarization_glue_l_thermal_part_landau_w_method ig om p m beta i := by
  simpa only [gluon.thermal.polarization_glue_l_thermal_part_landau_w_method, toC_complex, ofR_complex] using hP.half (loop_glue_l p m beta hm hb) i

theorem int_glue_t (p m beta : ℝ) (hm : m ≠ 0) (hb : 0 < beta) (i : Integral ℝ) : P fun om => gluon.thermal.polarization_glue_t_thermal_part_landau_w_method ig om p m beta i := by
  simpa only [gluon.thermal.polarization_glue_t_thermal_part_landau_w_method, toC_complex, ofR_complex] using hP.half (loop_glue_t p m beta hm hb) i

theorem int_quark_l (k : Consts ℝ) (p mq beta mu : ℝ) (hb : 0 < beta) (i : Integral ℝ) : P fun om => gluon.thermal.polarization_quark_l_thermal_part_landau_w_method ig k om p mq beta mu i := by
  simpa only [gluon.thermal.polarization_quark_l_thermal_part_landau_w_method, toC_complex, ofR_complex] using hP.half (loop_quark_l k p mq beta mu hb) i

theorem int_quark_t (k : Consts ℝ) (p mq beta mu : ℝ) (hb : 0 < beta) (i : Integral ℝ) : P fun om => gluon.thermal.polarization_quark_t_thermal_part_landau_w_method ig k om p mq beta mu i := by
  simpa only [gluon.thermal.polarization_quark_t_thermal_part_landau_w_method, toC_complex, ofR_complex] using hP.half (loop_quark_t k p mq beta mu hb) i

theorem int_quark_l0 (k : Consts ℝ) (p mq mu : ℝ) (i : Integral ℝ) : P fun om => gluon.thermal.polarization_quark_l_thermal_part_zero_temp_landau_w_method ig k om p mq mu i := by
  unfold gluon.thermal.polarization_quark_l_thermal_part_zero_temp_landau_w_method
  by_cases h : |mu| < |mq|
  · simpa [h] using hP.re 0
  · simp only [h, if_false, toC_complex]
    exact hP.fin (Real.sqrt_nonneg _) (loop_quark_l0 k p mq mu _) i

theorem int_quark_t0 (k : Consts ℝ) (p mq mu : ℝ) (i : Integral ℝ) : P fun om => gluon.thermal.polarization_quark_t_thermal_part_zero_temp_landau_w_method ig k om p mq mu i := by
  unfold gluon.thermal.polarization_quark_t_thermal_part_zero_temp_landau_w_method
  by_cases h : |mu| < |mq|
  · simpa [h] using hP.re 0
  · simp only [h, if_false, toC_complex]
    exact hP.fin (Real.sqrt_nonneg _) (loop_quark_t0 k p mq mu _) i

theorem int_zm_ghost (m beta : ℝ) (hm : m ≠ 0) (hb : 0 < beta) (i : Integral ℝ) : P fun om => ghost.thermal.zero_momentum.self_energy_thermal_part_landau_w_method ig om m beta i := by
  simpa only [ghost.thermal.zero_momentum.self_energy_thermal_part_landau_w_method, toC_complex, ofR_complex] using hP.half (loop_zm_ghost m beta hm hb) i

theorem int_zm_glue_l (m beta : ℝ) (hm : m ≠ 0) (hb : 0 < beta) (i : Integral ℝ) : P fun om => gluon.thermal.zero_momentum.polarization_glue_l_thermal_part_landau_w_method ig om m beta i := by
  simpa only [gluon.thermal.zero_momentum.polarization_glue_l_thermal_part_landau_w_method, toC_complex, ofR_complex] using hP.half (loop_zm_glue_l m beta hm hb) i

theorem int_zm_glue_t (m beta : ℝ) (hm : m ≠ 0) (hb : 0 < beta) (i : Integral ℝ) : P fun om => gluon.thermal.zero_momentum.polarization_glue_t_thermal_part_landau_w_method ig om m beta i := by
  simpa only [gluon.thermal.zero_momentum.polarization_glue_t_thermal_part_landau_w_method, toC_complex, ofR_complex] using hP.half (loop_zm_glue_t m beta hm hb) i

theorem int_zm_quark_l (k : Consts ℝ) (mq beta mu : ℝ) (hb : 0 < beta) (i : Integral ℝ) : P fun om => gluon.thermal.zero_momentum.polarization_quark_l_thermal_part_landau_w_method ig k om mq beta mu i := by
  simpa only [gluon.thermal.zero_momentum.polarization_quark_l_thermal_part_landau_w_method, toC_complex, ofR_complex] using hP.half (loop_zm_quark_l k mq beta mu hb) i

theorem int_zm_quark_t (k : Consts ℝ) (mq beta mu : ℝ) (hb : 0 < beta) (i : Integral ℝ) : P fun om => gluon.thermal.zero_momentum.polarization_quark_t_thermal_part_landau_w_method ig k om mq beta mu i := by
  simpa only [gluon.thermal.zero_momentum.polarization_quark_t_thermal_part_landau_w_method, toC_complex, ofR_complex] using hP.half (loop_zm_quark_t k mq beta mu hb) i

theorem int_zm_quark_l0 (k : Consts ℝ) (mq mu : ℝ) (i : Integral ℝ) : P fun om => gluon.thermal.zero_momentum.polarization_quark_l_thermal_part_zero_temp_landau_w_method ig k om mq mu i := by
  unfold gluon.thermal.zero_momentum.polarization_quark_l_thermal_part_zero_temp_landau_w_method
  by_cases h : |mu| < |mq|
  · simpa [h] using hP.re 0
  · simp only [h, if_false, toC_complex]
    exact hP.fin (Real.sqrt_nonneg _) (loop_zm_quark_l0 k mq mu _) i

theorem int_zm_quark_t0 (k : Consts ℝ) (mq mu : ℝ) (i : Integral ℝ) : P fun om => gluon.thermal.zero_momentum.polarization_quark_t_thermal_part_zero_temp_landau_w_method ig k om mq mu i := by
  unfold gluon.thermal.zero_momentum.polarization_quark_t_thermal_part_zero_temp_landau_w_method
  by_cases h : |mu| < |mq|
  · simpa [h] using hP.re 0
  · simp only [h, if_false, toC_complex]
    exact hP.fin (Real.sqrt_nonneg _) (loop_zm_quark_t0 k mq mu _) i

end

/-! ### The self-energies -/

/-- **C93** (self-energies): the ghost self-energy and the gluon polarizations, at finite and at zero temperature, are even in the frequency and satisfy the reflection
principle, whatever the quadrature rule. -/
theorem C93_self_energies_symmetric {ig : Integrator} (hi : ig.Interior) (hc : ig.Conj) (k : Consts ℝ) (p m beta mq mu : ℝ) (hm : m ≠ 0) (hb : 0 < beta) (method : Integral ℝ) :
    Symmetric (fun om => ghost.thermal.self_energy_thermal_part_landau_w_method ig om p m beta method) ∧
    Symmetric (fun om => gluon.thermal.polarization_glue_l_thermal_part_landau_w_method ig om p m beta method) ∧
    Symmetric (fun om => gluon.thermal.polarization_glue_t_thermal_part_landau_w_method ig om p m beta method) ∧
    Symmetric (fun om => gluon.thermal.polarization_quark_l_thermal_part_landau_w_method ig k om p mq beta mu method) ∧
    Symmetric (fun om => gluon.thermal.polarization_quark_t_thermal_part_landau_w_method ig k om p mq beta mu method) ∧
    Symmetric (fun om => gluon.thermal.polarization_quark_l_thermal_part_zero_temp_landau_w_method ig k om p mq mu method) ∧
    Symmetric (fun om => gluon.thermal.polarization_quark_t_thermal_part_zero_temp_landau_w_method ig k om p mq mu method) :=
  let hP := admissible_symmetric hi hc
  ⟨int_ghost hP p m beta hm hb method,
   int_glue_l hP p m beta hm hb method,
   int_glue_t hP p m beta hm hb method,
   int_quark_l hP k p mq beta mu hb method,
   int_quark_t hP k p mq beta mu hb method,
   int_quark_l0 hP k p mq mu method,
   int_quark_t0 hP k p mq mu method⟩

/-- **C93** (self-energies): computed without quadrature error, the ghost self-energy and the gluon polarizations, at finite and at zero temperature,
are holomorphic off the imaginary axis. -/
theorem C93_self_energies_analytic (k : Consts ℝ) (p m beta mq mu : ℝ) (hm : m ≠ 0) (hb : 0 < beta) (method : Integral ℝ) :
    Analytic (fun om => ghost.thermal.self_energy_thermal_part_landau_w_method .exact om p m beta method) ∧
    Analytic (fun om => gluon.thermal.polarization_glue_l_thermal_part_landau_w_method .exact om p m beta method) ∧
    Analytic (fun om => gluon.thermal.polarization_glue_t_thermal_part_landau_w_method .exact om p m beta method) ∧
    Analytic (fun om => gluon.thermal.polarization_quark_l_thermal_part_landau_w_method .exact k om p mq beta mu method) ∧
    Analytic (fun om => gluon.thermal.polarization_quark_t_thermal_part_landau_w_method .exact k om p mq beta mu method) ∧
    Analytic (fun om => gluon.thermal.polarization_quark_l_thermal_part_zero_temp_landau_w_method .exact k om p mq mu method) ∧
    Analytic (fun om => gluon.thermal.polarization_quark_t_thermal_part_zero_temp_landau_w_method .exact k om p mq mu method) :=
  let hP := admissible_analytic
  ⟨int_ghost hP p m beta hm hb method,
   int_glue_l hP p m beta hm hb method,
   int_glue_t hP p m beta hm hb method,
   int_quark_l hP k p mq beta mu hb method,
   int_quark_t hP k p mq beta mu hb method,
   int_quark_l0 hP k p mq mu method,
   int_quark_t0 hP k p mq mu method⟩

/-- **C93** (self-energies): the zero-momentum versions, are even in the frequency and satisfy the reflection
principle, whatever the quadrature rule. -/
theorem C93_self_energies_zero_momentum_symmetric {ig : Integrator} (hi : ig.Interior) (hc : ig.Conj) (k : Consts ℝ) (m beta mq mu : ℝ) (hm : m ≠ 0) (hb : 0 < beta) (method : Integral ℝ) :
    Symmetric (fun om => ghost.thermal.zero_momentum.self_energy_thermal_part_landau_w_method ig om m beta method) ∧
    Symmetric (fun om => gluon.thermal.zero_momentum.polarization_glue_l_thermal_part_landau_w_method ig om m beta method) ∧
    Symmetric (fun om => gluon.thermal.zero_momentum.polarization_glue_t_thermal_part_landau_w_method ig om m beta method) ∧
    Symmetric (fun om => gluon.thermal.zero_momentum.polarization_quark_l_thermal_part_landau_w_method ig k om mq beta mu method) ∧
    Symmetric (fun om => gluon.thermal.zero_momentum.polarization_quark_t_thermal_part_landau_w_method ig k om mq beta mu method) ∧
    Symmetric (fun om => gluon.thermal.zero_momentum.polarization_quark_l_thermal_part_zero_temp_landau_w_method ig k om mq mu method) ∧
    Symmetric (fun om => gluon.thermal.zero_momentum.polarization_quark_t_thermal_part_zero_temp_landau_w_method ig k om mq mu method) :=
  let hP := admissible_symmetric hi hc
  ⟨int_zm_ghost hP m beta hm hb method,
   int_zm_glue_l hP m beta hm hb method,
   int_zm_glue_t hP m beta hm hb method,
   int_zm_quark_l hP k mq beta mu hb method,
   int_zm_quark_t hP k mq beta mu hb method,
   int_zm_quark_l0 hP k mq mu method,
   int_zm_quark_t0 hP k mq mu method⟩

/-- **C93** (self-energies): computed without quadrature error, the zero-momentum versions,
are holomorphic off the imaginary axis. -/
theorem C93_self_energies_zero_momentum_analytic (k : Consts ℝ) (m beta mq mu : ℝ) (hm : m ≠ 0) (hb : 0 < beta) (method : Integral ℝ) :
    Analytic (fun om => ghost.thermal.zero_momentum.self_energy_thermal_part_landau_w_method .exact om m beta method) ∧
    Analytic (fun om => gluon.thermal.zero_momentum.polarization_glue_l_thermal_part_landau_w_method .exact om m beta method) ∧
    Analytic (fun om => gluon.thermal.zero_momentum.polarization_glue_t_thermal_part_landau_w_method .exact om m beta method) ∧
    Analytic (fun om => gluon.thermal.zero_momentum.polarization_quark_l_thermal_part_landau_w_method .exact k om mq beta mu method) ∧
    Analytic (fun om => gluon.thermal.zero_momentum.polarization_quark_t_thermal_part_landau_w_method .exact k om mq beta mu method) ∧
    Analytic (fun om => gluon.thermal.zero_momentum.polarization_quark_l_thermal_part_zero_temp_landau_w_method .exact k om mq mu method) ∧
    Analytic (fun om => gluon.thermal.zero_momentum.polarization_quark_t_thermal_part_zero_temp_landau_w_method .exact k om mq mu method) :=
  let hP := admissible_analytic
  ⟨int_zm_ghost hP m beta hm hb method,
   int_zm_glue_l hP m beta hm hb method,
   int_zm_glue_t hP m beta hm hb method,
   int_zm_quark_l hP k mq beta mu hb method,
   int_zm_quark_t hP k mq beta mu hb method,
   int_zm_quark_l0 hP k mq mu method,
   int_zm_quark_t0 hP k mq mu method⟩

/-! ### The inverse dressing functions -/

section
variable {P : (ℂ → ℂ) → Prop} {ig : Integrator} (hP : Admissible P ig)
include hP

theorem dr_ym_ghost (k : Consts ℝ) (p m beta f0 : ℝ) (hm : m ≠ 0) (hb : 0 < beta) : P fun om => ym.thermal.ghost.dressing_inv_landau ig k om p m beta f0 := by
  have hI := hP.inv p
  have hV := hP.vac _ (vac_ghost f0) p m hm
  simp only [ym.thermal.ghost.dressing_inv_landau, toC_complex, toC_real, ofR_complex]
  exact hP.add _ _ hV (hP.mul _ _ (hP.mul _ _ hI (hP.re _)) (int_ghost hP p m beta hm hb (consts.get_default_integration_method k)))

theorem dr_ym_l (k : Consts ℝ) (p m beta f0 : ℝ) (hm : m ≠ 0) (hb : 0 < beta) : P fun om => ym.thermal.gluon.dressing_l_inv_landau ig k om p m beta f0 := by
  have hI := hP.inv p
  have hV := hP.vac _ (vac_ym f0) p m hm
  simp only [ym.thermal.gluon.dressing_l_inv_landau, toC_complex, toC_real, ofR_complex]
  exact hP.sub _ _ hV (hP.mul _ _ (hP.mul _ _ hI (hP.re _)) (int_glue_l hP p m beta hm hb (consts.get_default_integration_method k)))

theorem dr_qcd_l (k : Consts ℝ) (p m mq beta mu f0 : ℝ) (hm : m ≠ 0) (hq : mq ≠ 0) (hb : 0 < beta) : P fun om => qcd.thermal.gluon.dressing_l_inv_landau ig k om p m mq beta mu f0 := by
  have hI := hP.inv p
  have hV := hP.vac _ (vac_qcd k (div_ne_zero hq hm) f0) p m hm
  simp only [qcd.thermal.gluon.dressing_l_inv_landau, toC_complex, toC_real, ofR_complex]
  exact hP.sub _ _ hV (hP.mul _ _ (hP.mul _ _ hI (hP.re _)) (hP.add _ _ (int_glue_l hP p m beta hm hb (consts.get_default_integration_method k)) (hP.mul _ _ (hP.re _) (int_quark_l hP k p mq beta mu hb (consts.get_default_integration_method k)))))

theorem dr_qcd0_l (k : Consts ℝ) (p m mq mu f0 : ℝ) (hm : m ≠ 0) (hq : mq ≠ 0) : P fun om => qcd.thermal.gluon.dressing_l_inv_zero_temp_landau ig k om p m mq mu f0 := by
  have hI := hP.inv p
  have hV := hP.vac _ (vac_qcd k (div_ne_zero hq hm) f0) p m hm
  simp only [qcd.thermal.gluon.dressing_l_inv_zero_temp_landau, toC_complex, toC_real, ofR_complex]
  exact hP.sub _ _ hV (hP.mul _ _ (hP.mul _ _ (hP.mul _ _ hI (hP.re _)) (hP.re _)) (int_quark_l0 hP k p mq mu (consts.get_default_integration_method k)))

theorem dr_cfg_l (k : Consts ℝ) (p beta mu f0 : ℝ) (nc : ℕ) (m : ℝ) (qs : List (ℕ × ℝ)) (hm : m ≠ 0) (hq : ∀ q ∈ qs, q.2 ≠ 0) (hb : 0 < beta) : P fun om => qcd.thermal.gluon.dressing_l_inv_landau_w_field_config ig k om p beta mu f0 (FieldConfig.new nc m qs) := by
  have hI := hP.inv p
  have hV := hP.vac _ (vac_config k f0 nc hm qs hq) p m hm
  simp only [qcd.thermal.gluon.dressing_l_inv_landau_w_field_config, toC_complex, toC_real, ofR_complex]
  exact hP.sub _ _ hV (hP.mul _ _ (hP.mul _ _ hI (hP.re _)) (hP.add _ _ (int_glue_l hP p m beta hm hb (consts.get_default_integration_method k)) (hP.sum (FieldConfig.new nc m qs).quarks_internal _ fun qi _ => hP.mul _ _ (int_quark_l hP k p qi.mq beta mu hb (consts.get_default_integration_method k)) (hP.re _))))

theorem dr_cfg0_l (k : Consts ℝ) (p mu f0 : ℝ) (nc : ℕ) (m : ℝ) (qs : List (ℕ × ℝ)) (hm : m ≠ 0) (hq : ∀ q ∈ qs, q.2 ≠ 0) : P fun om => qcd.thermal.gluon.dressing_l_inv_zero_temp_landau_w_field_config ig k om p mu f0 (FieldConfig.new nc m qs) := by
  have hI := hP.inv p
  have hV := hP.vac _ (vac_config k f0 nc hm qs hq) p m hm
  simp only [qcd.thermal.gluon.dressing_l_inv_zero_temp_landau_w_field_config, toC_complex, toC_real, ofR_complex]
  exact hP.sub _ _ hV (hP.mul _ _ (hP.mul _ _ hI (hP.re _)) (hP.sum (FieldConfig.new nc m qs).quarks_internal _ fun qi _ => hP.mul _ _ (int_quark_l0 hP k p qi.mq mu (consts.get_default_integration_method k)) (hP.re _)))

theorem dr_ym_t (k : Consts ℝ) (p m beta f0 : ℝ) (hm : m ≠ 0) (hb : 0 < beta) : P fun om => ym.thermal.gluon.dressing_t_inv_landau ig k om p m beta f0 := by
  have hI := hP.inv p
  have hV := hP.vac _ (vac_ym f0) p m hm
  simp only [ym.thermal.gluon.dressing_t_inv_landau, toC_complex, toC_real, ofR_complex]
  exact hP.sub _ _ hV (hP.mul _ _ (hP.mul _ _ hI (hP.re _)) (int_glue_t hP p m beta hm hb (consts.get_default_integration_method k)))

theorem dr_qcd_t (k : Consts ℝ) (p m mq beta mu f0 : ℝ) (hm : m ≠ 0) (hq : mq ≠ 0) (hb : 0 < beta) : P fun om => qcd.thermal.gluon.dressing_t_inv_landau ig k om p m mq beta mu f0 := by
  have hI := hP.inv p
  have hV := hP.vac _ (vac_qcd k (div_ne_zero hq hm) f0) p m hm
  simp only [qcd.thermal.gluon.dressing_t_inv_landau, toC_complex, toC_real, ofR_complex]
  exact hP.sub _ _ hV (hP.mul _ _ (hP.mul _ _ hI (hP.re _)) (hP.add _ _ (int_glue_t hP p m beta hm hb (consts.get_default_integration_method k)) (hP.mul _ _ (hP.re _) (int_quark_t hP k p mq beta mu hb (consts.get_default_integration_method k)))))

theorem dr_qcd0_t (k : Consts ℝ) (p m mq mu f0 : ℝ) (hm : m ≠ 0) (hq : mq ≠ 0) : P fun om => qcd.thermal.gluon.dressing_t_inv_zero_temp_landau ig k om p m mq mu f0 := by
  have hI := hP.inv p
  have hV := hP.vac _ (vac_qcd k (div_ne_zero hq hm) f0) p m hm
  simp only [qcd.thermal.gluon.dressing_t_inv_zero_temp_landau, toC_complex, toC_real, ofR_complex]
  exact hP.sub _ _ hV (hP.mul _ _ (hP.mul _ _ (hP.mul _ _ hI (hP.re _)) (hP.re _)) (int_quark_t0 hP k p mq mu (consts.get_default_integration_method k)))

theorem dr_cfg_t (k : Consts ℝ) (p beta mu f0 : ℝ) (nc : ℕ) (m : ℝ) (qs : List (ℕ × ℝ)) (hm : m ≠ 0) (hq : ∀ q ∈ qs, q.2 ≠ 0) (hb : 0 < beta) : P fun om => qcd.thermal.gluon.dressing_t_inv_landau_w_field_config ig k om p beta mu f0 (FieldConfig.new nc m qs) := by
  have hI := hP.inv p
  have hV := hP.vac _ (vac_config k f0 nc hm qs hq) p m hm
  simp only [qcd.thermal.gluon.dressing_t_inv_landau_w_field_config, toC_complex, toC_real, ofR_complex]
  exact hP.sub _ _ hV (hP.mul _ _ (hP.mul _ _ hI (hP.re _)) (hP.add _ _ (int_glue_t hP p m beta hm hb (consts.get_default_integration_method k)) (hP.sum (FieldConfig.new nc m qs).quarks_internal _ fun qi _ => hP.mul _ _ (int_quark_t hP k p qi.mq beta mu hb (consts.get_default_integration_method k)) (hP.re _))))

theorem dr_cfg0_t (k : Consts ℝ) (p mu f0 : ℝ) (nc : ℕ) (m : ℝ) (qs : List (ℕ × ℝ)) (hm : m ≠ 0) (hq : ∀ q ∈ qs, q.2 ≠ 0) : P fun om => qcd.thermal.gluon.dressing_t_inv_zero_temp_landau_w_field_config ig k om p mu f0 (FieldConfig.new nc m qs) := by
  have hI := hP.inv p
  have hV := hP.vac _ (vac_config k f0 nc hm qs hq) p m hm
  simp only [qcd.thermal.gluon.dressing_t_inv_zero_temp_landau_w_field_config, toC_complex, toC_real, ofR_complex]
  exact hP.sub _ _ hV (hP.mul _ _ (hP.mul _ _ hI (hP.re _)) (hP.sum (FieldConfig.new nc m qs).quarks_internal _ fun qi _ => hP.mul _ _ (int_quark_t0 hP k p qi.mq mu (consts.get_default_integration_method k)) (hP.re _)))

theorem dr_zm_ym_ghost (k : Consts ℝ) (m beta f0 : ℝ) (hm : m ≠ 0) (hb : 0 < beta) : P fun om => ym.thermal.zero_momentum.ghost.dressing_inv_landau ig k om m beta f0 := by
  have hI := hP.inv0
  have hV := hP.vac0 _ (vac_ghost f0) hm
  simp only [ym.thermal.zero_momentum.ghost.dressing_inv_landau, toC_complex, toC_real, ofR_complex]
  exact hP.add _ _ hV (hP.mul _ _ (hP.mul _ _ hI (hP.re _)) (int_zm_ghost hP m beta hm hb (consts.get_default_integration_method k)))

theorem dr_zm_ym_l (k : Consts ℝ) (m beta f0 : ℝ) (hm : m ≠ 0) (hb : 0 < beta) : P fun om => ym.thermal.zero_momentum.gluon.dressing_l_inv_landau ig k om m beta f0 := by
  have hI := hP.inv0
  have hV := hP.vac0 _ (vac_ym f0) hm
  simp only [ym.thermal.zero_momentum.gluon.dressing_l_inv_landau, toC_complex, toC_real, ofR_complex]
  exact hP.sub _ _ hV (hP.mul _ _ (hP.mul _ _ hI (hP.re _)) (int_zm_glue_l hP m beta hm hb (consts.get_default_integration_method k)))

theorem dr_zm_qcd_l (k : Consts ℝ) (m mq beta mu f0 : ℝ) (hm : m ≠ 0) (hq : mq ≠ 0) (hb : 0 < beta) : P fun om => qcd.thermal.zero_momentum.gluon.dressing_l_inv_landau ig k om m mq beta mu f0 := by
  have hI := hP.inv0
  have hV := hP.vac0 _ (vac_qcd k (div_ne_zero hq hm) f0) hm
  simp only [qcd.thermal.zero_momentum.gluon.dressing_l_inv_landau, toC_complex, toC_real, ofR_complex]
  exact hP.sub _ _ hV (hP.mul _ _ (hP.mul _ _ hI (hP.re _)) (hP.add _ _ (int_zm_glue_l hP m beta hm hb (consts.get_default_integration_method k)) (hP.mul _ _ (hP.re _) (int_zm_quark_l hP k mq beta mu hb (consts.get_default_integration_method k)))))

theorem dr_zm_qcd0_l (k : Consts ℝ) (m mq mu f0 : ℝ) (hm : m ≠ 0) (hq : mq ≠ 0) : P fun om => qcd.thermal.zero_momentum.gluon.dressing_l_inv_zero_temp_landau ig k om m mq mu f0 := by
  have hI := hP.inv0
  have hV := hP.vac0 _ (vac_qcd k (div_ne_zero hq hm) f0) hm
  simp only [qcd.thermal.zero_momentum.gluon.dressing_l_inv_zero_temp_landau, toC_complex, toC_real, ofR_complex]
  exact hP.sub _ _ hV (hP.mul _ _ (hP.mul _ _ (hP.mul _ _ hI (hP.re _)) (hP.re _)) (int_zm_quark_l0 hP k mq mu (consts.get_default_integration_method k)))

theorem dr_zm_cfg_l (k : Consts ℝ) (beta mu f0 : ℝ) (nc : ℕ) (m : ℝ) (qs : List (ℕ × ℝ)) (hm : m ≠ 0) (hq : ∀ q ∈ qs, q.2 ≠ 0) (hb : 0 < beta) : P fun om => qcd.thermal.zero_momentum.gluon.dressing_l_inv_landau_w_field_config ig k om beta mu f0 (FieldConfig.new nc m qs) := by
  have hI := hP.inv0
  have hV := hP.vac0 _ (vac_config k f0 nc hm qs hq) hm
  simp only [qcd.thermal.zero_momentum.gluon.dressing_l_inv_landau_w_field_config, toC_complex, toC_real, ofR_complex]
  exact hP.sub _ _ hV (hP.mul _ _ (hP.mul _ _ hI (hP.re _)) (hP.add _ _ (int_zm_glue_l hP m beta hm hb (consts.get_default_integration_method k)) (hP.sum (FieldConfig.new nc m qs).quarks_internal _ fun qi _ => hP.mul _ _ (int_zm_quark_l hP k qi.mq beta mu hb (consts.get_default_integration_method k)) (hP.re _))))

theorem dr_zm_cfg0_l (k : Consts ℝ) (mu f0 : ℝ) (nc : ℕ) (m : ℝ) (qs : List (ℕ × ℝ)) (hm : m ≠ 0) (hq : ∀ q ∈ qs, q.2 ≠ 0) : P fun om => qcd.thermal.zero_momentum.gluon.dressing_l_inv_zero_temp_landau_w_field_config ig k om mu f0 (FieldConfig.new nc m qs) := by
  have hI := hP.inv0
  have hV := hP.vac0 _ (vac_config k f0 nc hm qs hq) hm
  simp only [qcd.thermal.zero_momentum.gluon.dressing_l_inv_zero_temp_landau_w_field_config, toC_complex, toC_real, ofR_complex]
  exact hP.sub _ _ hV (hP.mul _ _ (hP.mul _ _ hI (hP.re _)) (hP.sum (FieldConfig.new nc m qs).quarks_internal _ fun qi _ => hP.mul _ _ (int_zm_quark_l0 hP k qi.mq mu (consts.get_default_integration_method k)) (hP.re _)))

theorem dr_zm_ym_t (k : Consts ℝ) (m beta f0 : ℝ) (hm : m ≠ 0) (hb : 0 < beta) : P fun om => ym.thermal.zero_momentum.gluon.dressing_t_inv_landau ig k om m beta f0 := by
  have hI := hP.inv0
  have hV := hP.vac0 _ (vac_ym f0) hm
  simp only [ym.thermal.zero_momentum.gluon.dressing_t_inv_landau, ym.thermal.zero_momentum.gluon.dressing_l_inv_landau, toC_complex, toC_real, ofR_complex]
  exact hP.sub _ _ hV (hP.mul _ _ (hP.mul _ _ hI (hP.re _)) (int_zm_glue_l hP m beta hm hb (consts.get_default_integration_method k)))

theorem dr_zm_qcd_t (k : Consts ℝ) (m mq beta mu f0 : ℝ) (hm : m ≠ 0) (hq : mq ≠ 0) (hb : 0 < beta) : P fun om => qcd.thermal.zero_momentum.gluon.dressing_t_inv_landau ig k om m mq beta mu f0 := by
  have hI := hP.inv0
  have hV := hP.vac0 _ (vac_qcd k (div_ne_zero hq hm) f0) hm
  simp only [qcd.thermal.zero_momentum.gluon.dressing_t_inv_landau, toC_complex, toC_real, ofR_complex]
  exact hP.sub _ _ hV (hP.mul _ _ (hP.mul _ _ hI (hP.re _)) (hP.add _ _ (int_zm_glue_t hP m beta hm hb (consts.get_default_integration_method k)) (hP.mul _ _ (hP.re _) (int_zm_quark_t hP k mq beta mu hb (consts.get_default_integration_method k)))))

theorem dr_zm_qcd0_t (k : Consts ℝ) (m mq mu f0 : ℝ) (hm : m ≠ 0) (hq : mq ≠ 0) : P fun om => qcd.thermal.zero_momentum.gluon.dressing_t_inv_zero_temp_landau ig k om m mq mu f0 := by
  have hI := hP.inv0
  have hV := hP.vac0 _ (vac_qcd k (div_ne_zero hq hm) f0) hm
  simp only [qcd.thermal.zero_momentum.gluon.dressing_t_inv_zero_temp_landau, toC_complex, toC_real, ofR_complex]
  exact hP.sub _ _ hV (hP.mul _ _ (hP.mul _ _ (hP.mul _ _ hI (hP.re _)) (hP.re _)) (int_zm_quark_t0 hP k mq mu (consts.get_default_integration_method k)))

theorem dr_zm_cfg_t (k : Consts ℝ) (beta mu f0 : ℝ) (nc : ℕ) (m : ℝ) (qs : List (ℕ × ℝ)) (hm : m ≠ 0) (hq : ∀ q ∈ qs, q.2 ≠ 0) (hb : 0 < beta) : P fun om => qcd.thermal.zero_momentum.gluon.dressing_t_inv_landau_w_field_config ig k om beta mu f0 (FieldConfig.new nc m qs) := by
  have hI := hP.inv0
  have hV := hP.vac0 _ (vac_config k f0 nc hm qs hq) hm
  simp only [qcd.thermal.zero_momentum.gluon.dressing_t_inv_landau_w_field_config, toC_complex, toC_real, ofR_complex]
  exact hP.sub _ _ hV (hP.mul _ _ (hP.mul _ _ hI (hP.re _)) (hP.add _ _ (int_zm_glue_t hP m beta hm hb (consts.get_default_integration_method k)) (hP.sum (FieldConfig.new nc m qs).quarks_internal _ fun qi _ => hP.mul _ _ (int_zm_quark_t hP k qi.mq beta mu hb (consts.get_default_integration_method k)) (hP.re _))))

theorem dr_zm_cfg0_t (k : Consts ℝ) (mu f0 : ℝ) (nc : ℕ) (m : ℝ) (qs : List (ℕ × ℝ)) (hm : m ≠ 0) (hq : ∀ q ∈ qs, q.2 ≠ 0) : P fun om => qcd.thermal.zero_momentum.gluon.dressing_t_inv_zero_temp_landau_w_field_config ig k om mu f0 (FieldConfig.new nc m qs) := by
  have hI := hP.inv0
  have hV := hP.vac0 _ (vac_config k f0 nc hm qs hq) hm
  simp only [qcd.thermal.zero_momentum.gluon.dressing_t_inv_zero_temp_landau_w_field_config, toC_complex, toC_real, ofR_complex]
  exact hP.sub _ _ hV (hP.mul _ _ (hP.mul _ _ hI (hP.re _)) (hP.sum (FieldConfig.new nc m qs).quarks_internal _ fun qi _ => hP.mul _ _ (int_zm_quark_t0 hP k qi.mq mu (consts.get_default_integration_method k)) (hP.re _)))

end

/-- **C93** (inverse dressing functions): Yang-Mills ghost and gluon. -/
theorem C93_dressing_inv_ym_symmetric {ig : Integrator} (hi : ig.Interior) (hc : ig.Conj) (k : Consts ℝ) (p m beta f0 : ℝ) (hm : m ≠ 0) (hb : 0 < beta) :
    Symmetric (fun om => ym.thermal.ghost.dressing_inv_landau ig k om p m beta f0) ∧
    Symmetric (fun om => ym.thermal.gluon.dressing_l_inv_landau ig k om p m beta f0) ∧
    Symmetric (fun om => ym.thermal.gluon.dressing_t_inv_landau ig k om p m beta f0) ∧
    Symmetric (fun om => ym.thermal.zero_momentum.ghost.dressing_inv_landau ig k om m beta f0) ∧
    Symmetric (fun om => ym.thermal.zero_momentum.gluon.dressing_l_inv_landau ig k om m beta f0) ∧
    Symmetric (fun om => ym.thermal.zero_momentum.gluon.dressing_t_inv_landau ig k om m beta f0) :=
  let hP := admissible_symmetric hi hc
  ⟨dr_ym_ghost hP k p m beta f0 hm hb,
   dr_ym_l hP k p m beta f0 hm hb,
   dr_ym_t hP k p m beta f0 hm hb,
   dr_zm_ym_ghost hP k m beta f0 hm hb,
   dr_zm_ym_l hP k m beta f0 hm hb,
   dr_zm_ym_t hP k m beta f0 hm hb⟩

/-- **C93** (inverse dressing functions): Yang-Mills ghost and gluon. -/
theorem C93_dressing_inv_ym_analytic (k : Consts ℝ) (p m beta f0 : ℝ) (hm : m ≠ 0) (hb : 0 < beta) :
    Analytic (fun om => ym.thermal.ghost.dressing_inv_landau .exact k om p m beta f0) ∧
    Analytic (fun om => ym.thermal.gluon.dressing_l_inv_landau .exact k om p m beta f0) ∧
    Analytic (fun om => ym.thermal.gluon.dressing_t_inv_landau .exact k om p m beta f0) ∧
    Analytic (fun om => ym.thermal.zero_momentum.ghost.dressing_inv_landau .exact k om m beta f0) ∧
    Analytic (fun om => ym.thermal.zero_momentum.gluon.dressing_l_inv_landau .exact k om m beta f0) ∧
    Analytic (fun om => ym.thermal.zero_momentum.gluon.dressing_t_inv_landau .exact k om m beta f0) :=
  let hP := admissible_analytic
  ⟨dr_ym_ghost hP k p m beta f0 hm hb,
   dr_ym_l hP k p m beta f0 hm hb,
   dr_ym_t hP k p m beta f0 hm hb,
   dr_zm_ym_ghost hP k m beta f0 hm hb,
   dr_zm_ym_l hP k m beta f0 hm hb,
   dr_zm_ym_t hP k m beta f0 hm hb⟩

/-- **C93** (inverse dressing functions): QCD gluon, one quark mass. -/
theorem C93_dressing_inv_qcd_symmetric {ig : Integrator} (hi : ig.Interior) (hc : ig.Conj) (k : Consts ℝ) (p m mq beta mu f0 : ℝ) (hm : m ≠ 0) (hq : mq ≠ 0) (hb : 0 < beta) :
    Symmetric (fun om => qcd.thermal.gluon.dressing_l_inv_landau ig k om p m mq beta mu f0) ∧
    Symmetric (fun om => qcd.thermal.gluon.dressing_t_inv_landau ig k om p m mq beta mu f0) ∧
    Symmetric (fun om => qcd.thermal.zero_momentum.gluon.dressing_l_inv_landau ig k om m mq beta mu f0) ∧
    Symmetric (fun om => qcd.thermal.zero_momentum.gluon.dressing_t_inv_landau ig k om m mq beta mu f0) :=
  let hP := admissible_symmetric hi hc
  ⟨dr_qcd_l hP k p m mq beta mu f0 hm hq hb,
   dr_qcd_t hP k p m mq beta mu f0 hm hq hb,
   dr_zm_qcd_l hP k m mq beta mu f0 hm hq hb,
   dr_zm_qcd_t hP k m mq beta mu f0 hm hq hb⟩

/-- **C93** (inverse dressing functions): QCD gluon, one quark mass. -/
theorem C93_dressing_inv_qcd_analytic (k : Consts ℝ) (p m mq beta mu f0 : ℝ) (hm : m ≠ 0) (hq : mq ≠ 0) (hb : 0 < beta) :
    Analytic (fun om => qcd.thermal.gluon.dressing_l_inv_landau .exact k om p m mq beta mu f0) ∧
    Analytic (fun om => qcd.thermal.gluon.dressing_t_inv_landau .exact k om p m mq beta mu f0) ∧
    Analytic (fun om => qcd.thermal.zero_momentum.gluon.dressing_l_inv_landau .exact k om m mq beta mu f0) ∧
    Analytic (fun om => qcd.thermal.zero_momentum.gluon.dressing_t_inv_landau .exact k om m mq beta mu f0) :=
  let hP := admissible_analytic
  ⟨dr_qcd_l hP k p m mq beta mu f0 hm hq hb,
   dr_qcd_t hP k p m mq beta mu f0 hm hq hb,
   dr_zm_qcd_l hP k m mq beta mu f0 hm hq hb,
   dr_zm_qcd_t hP k m mq beta mu f0 hm hq hb⟩

/-- **C93** (inverse dressing functions): QCD gluon at zero temperature, one quark mass. -/
theorem C93_dressing_inv_qcd_zero_temp_symmetric {ig : Integrator} (hi : ig.Interior) (hc : ig.Conj) (k : Consts ℝ) (p m mq mu f0 : ℝ) (hm : m ≠ 0) (hq : mq ≠ 0) :
    Symmetric (fun om => qcd.thermal.gluon.dressing_l_inv_zero_temp_landau ig k om p m mq mu f0) ∧
    Symmetric (fun om => qcd.thermal.gluon.dressing_t_inv_zero_temp_landau ig k om p m mq mu f0) ∧
    Symmetric (fun om => qcd.thermal.zero_momentum.gluon.dressing_l_inv_zero_temp_landau ig k om m mq mu f0) ∧
    Symmetric (fun om => qcd.thermal.zero_momentum.gluon.dressing_t_inv_zero_temp_landau ig k om m mq mu f0) :=
  let hP := admissible_symmetric hi hc
  ⟨dr_qcd0_l hP k p m mq mu f0 hm hq,
   dr_qcd0_t hP k p m mq mu f0 hm hq,
   dr_zm_qcd0_l hP k m mq mu f0 hm hq,
   dr_zm_qcd0_t hP k m mq mu f0 hm hq⟩

/-- **C93** (inverse dressing functions): QCD gluon at zero temperature, one quark mass. -/
theorem C93_dressing_inv_qcd_zero_temp_analytic (k : Consts ℝ) (p m mq mu f0 : ℝ) (hm : m ≠ 0) (hq : mq ≠ 0) :
    Analytic (fun om => qcd.thermal.gluon.dressing_l_inv_zero_temp_landau .exact k om p m mq mu f0) ∧
    Analytic (fun om => qcd.thermal.gluon.dressing_t_inv_zero_temp_landau .exact k om p m mq mu f0) ∧
    Analytic (fun om => qcd.thermal.zero_momentum.gluon.dressing_l_inv_zero_temp_landau .exact k om m mq mu f0) ∧
    Analytic (fun om => qcd.thermal.zero_momentum.gluon.dressing_t_inv_zero_temp_landau .exact k om m mq mu f0) :=
  let hP := admissible_analytic
  ⟨dr_qcd0_l hP k p m mq mu f0 hm hq,
   dr_qcd0_t hP k p m mq mu f0 hm hq,
   dr_zm_qcd0_l hP k m mq mu f0 hm hq,
   dr_zm_qcd0_t hP k m mq mu f0 hm hq⟩

/-- **C93** (inverse dressing functions): QCD gluon, any field configuration. -/
theorem C93_dressing_inv_field_config_symmetric {ig : Integrator} (hi : ig.Interior) (hc : ig.Conj) (k : Consts ℝ) (p beta mu f0 : ℝ) (nc : ℕ) (m : ℝ) (qs : List (ℕ × ℝ)) (hm : m ≠ 0) (hq : ∀ q ∈ qs, q.2 ≠ 0) (hb : 0 < beta) :
    Symmetric (fun om => qcd.thermal.gluon.dressing_l_inv_landau_w_field_config ig k om p beta mu f0 (FieldConfig.new nc m qs)) ∧
    Symmetric (fun om => qcd.thermal.gluon.dressing_t_inv_landau_w_field_config ig k om p beta mu f0 (FieldConfig.new nc m qs)) ∧
    Symmetric (fun om => qcd.thermal.zero_momentum.gluon.dressing_l_inv_landau_w_field_config ig k om beta mu f0 (FieldConfig.new nc m qs)) ∧
    Symmetric (fun om => qcd.thermal.zero_momentum.gluon.dressing_t_inv_landau_w_field_config ig k om beta mu f0 (FieldConfig.new nc m qs)) :=
  let hP := admissible_symmetric hi hc
  ⟨dr_cfg_l hP k p beta mu f0 nc m qs hm hq hb,
   dr_cfg_t hP k p beta mu f0 nc m qs hm hq hb,
   dr_zm_cfg_l hP k beta mu f0 nc m qs hm hq hb,
   dr_zm_cfg_t hP k beta mu f0 nc m qs hm hq hb⟩

/-- **C93** (inverse dressing functions): QCD gluon, any field configuration. -/
theorem C93_dressing_inv_field_config_analytic (k : Consts ℝ) (p beta mu f0 : ℝ) (nc : ℕ) (m : ℝ) (qs : List (ℕ × ℝ)) (hm : m ≠ 0) (hq : ∀ q ∈ qs, q.2 ≠ 0) (hb : 0 < beta) :
    Analytic (fun om => qcd.thermal.gluon.dressing_l_inv_landau_w_field_config .exact k om p beta mu f0 (FieldConfig.new nc m qs)) ∧
    Analytic (fun om => qcd.thermal.gluon.dressing_t_inv_landau_w_field_config .exact k om p beta mu f0 (FieldConfig.new nc m qs)) ∧
    Analytic (fun om => qcd.thermal.zero_momentum.gluon.dressing_l_inv_landau_w_field_config .exact k om beta mu f0 (FieldConfig.new nc m qs)) ∧
    Analytic (fun om => qcd.thermal.zero_momentum.gluon.dressing_t_inv_landau_w_field_config .exact k om beta mu f0 (FieldConfig.new nc m qs)) :=
  let hP := admissible_analytic
  ⟨dr_cfg_l hP k p beta mu f0 nc m qs hm hq hb,
   dr_cfg_t hP k p beta mu f0 nc m qs hm hq hb,
   dr_zm_cfg_l hP k beta mu f0 nc m qs hm hq hb,
   dr_zm_cfg_t hP k beta mu f0 nc m qs hm hq hb⟩

/-- **C93** (inverse dressing functions): QCD gluon at zero temperature, any field configuration. -/
theorem C93_dressing_inv_field_config_zero_temp_symmetric {ig : Integrator} (hi : ig.Interior) (hc : ig.Conj) (k : Consts ℝ) (p mu f0 : ℝ) (nc : ℕ) (m : ℝ) (qs : List (ℕ × ℝ)) (hm : m ≠ 0) (hq : ∀ q ∈ qs, q.2 ≠ 0) :
    Symmetric (fun om => qcd.thermal.gluon.dressing_l_inv_zero_temp_landau_w_field_config ig k om p mu f0 (FieldConfig.new nc m qs)) ∧
    Symmetric (fun om => qcd.thermal.gluon.dressing_t_inv_zero_temp_landau_w_field_config ig k om p mu f0 (FieldConfig.new nc m qs)) ∧
    Symmetric (fun om => qcd.thermal.zero_momentum.gluon.dressing_l_inv_zero_temp_landau_w_field_config ig k om mu f0 (FieldConfig.new nc m qs)) ∧
    Symmetric (fun om => qcd.thermal.zero_momentum.gluon.dressing_t_inv_zero_temp_landau_w_field_config ig k om mu f0 (FieldConfig.new nc m qs)) :=
  let hP := admissible_symmetric hi hc
  ⟨dr_cfg0_l hP k p mu f0 nc m qs hm hq,
   dr_cfg0_t hP k p mu f0 nc m qs hm hq,
   dr_zm_cfg0_l hP k mu f0 nc m qs hm hq,
   dr_zm_cfg0_t hP k mu f0 nc m qs hm hq⟩

/-- **C93** (inverse dressing functions): QCD gluon at zero temperature, any field configuration. -/
theorem C93_dressing_inv_field_config_zero_temp_analytic (k : Consts ℝ) (p mu f0 : ℝ) (nc : ℕ) (m : ℝ) (qs : List (ℕ × ℝ)) (hm : m ≠ 0) (hq : ∀ q ∈ qs, q.2 ≠ 0) :
    Analytic (fun om => qcd.thermal.gluon.dressing_l_inv_zero_temp_landau_w_field_config .exact k om p mu f0 (FieldConfig.new nc m qs)) ∧
    Analytic (fun om => qcd.thermal.gluon.dressing_t_inv_zero_temp_landau_w_field_config .exact k om p mu f0 (FieldConfig.new nc m qs)) ∧
    Analytic (fun om => qcd.thermal.zero_momentum.gluon.dressing_l_inv_zero_temp_landau_w_field_config .exact k om mu f0 (FieldConfig.new nc m qs)) ∧
    Analytic (fun om => qcd.thermal.zero_momentum.gluon.dressing_t_inv_zero_temp_landau_w_field_config .exact k om mu f0 (FieldConfig.new nc m qs)) :=
  let hP := admissible_analytic
  ⟨dr_cfg0_l hP k p mu f0 nc m qs hm hq,
   dr_cfg0_t hP k p mu f0 nc m qs hm hq,
   dr_zm_cfg0_l hP k mu f0 nc m qs hm hq,
   dr_zm_cfg0_t hP k mu f0 nc m qs hm hq⟩

/-! ### The dressing functions and propagators -/

theorem Spec.Symmetric.inv {F : ℂ → ℂ} (h : Symmetric F) : Symmetric fun om => (F om)⁻¹ :=
  ⟨fun om => by rw [h.even], fun om ho => by rw [h.reflects om ho, map_inv₀]⟩

theorem inv_freq_differentiable (p : ℝ) {om : ℂ} (ho : om.re ≠ 0) : DifferentiableAt ℂ (fun om : ℂ => (om * om + ((p * p : ℝ) : ℂ))⁻¹) om :=
  (closed_analytic.inv p).holomorphic om ho

theorem inv_freq0_differentiable {om : ℂ} (ho : om.re ≠ 0) : DifferentiableAt ℂ (fun om : ℂ => (om * om)⁻¹) om :=
  closed_analytic.inv0.holomorphic om ho

/-- **C93** (dressing functions and propagators): Yang-Mills ghost and gluon. -/
theorem C93_propagators_ym_symmetric {ig : Integrator} (hi : ig.Interior) (hc : ig.Conj) (k : Consts ℝ) (p m beta f0 : ℝ) (hm : m ≠ 0) (hb : 0 < beta) :
    Symmetric (fun om => ym.thermal.gluon.dressing_l_landau ig k om p m beta f0) ∧
    Symmetric (fun om => ym.thermal.gluon.propagator_l_landau ig k om p m beta f0) ∧
    Symmetric (fun om => ym.thermal.gluon.dressing_t_landau ig k om p m beta f0) ∧
    Symmetric (fun om => ym.thermal.gluon.propagator_t_landau ig k om p m beta f0) ∧
    Symmetric (fun om => ym.thermal.zero_momentum.ghost.dressing_landau ig k om m beta f0) ∧
    Symmetric (fun om => ym.thermal.zero_momentum.ghost.propagator_landau ig k om m beta f0) ∧
    Symmetric (fun om => ym.thermal.zero_momentum.gluon.dressing_l_landau ig k om m beta f0) ∧
    Symmetric (fun om => ym.thermal.zero_momentum.gluon.propagator_l_landau ig k om m beta f0) ∧
    Symmetric (fun om => ym.thermal.zero_momentum.gluon.dressing_t_landau ig k om m beta f0) ∧
    Symmetric (fun om => ym.thermal.zero_momentum.gluon.propagator_t_landau ig k om m beta f0) := by
  have hP := admissible_symmetric hi hc
  refine ⟨?_, ?_, ?_, ?_, ?_, ?_, ?_, ?_, ?_, ?_⟩
  · simpa only [ym.thermal.gluon.propagator_l_landau, ym.thermal.gluon.dressing_l_landau, toC_complex, toC_real, ofR_complex, ofReal_one, one_div] using (dr_ym_l hP k p m beta f0 hm hb).inv
  · simpa only [ym.thermal.gluon.propagator_l_landau, ym.thermal.gluon.dressing_l_landau, toC_complex, toC_real, ofR_complex, ofReal_one, one_div] using closed_symmetric.mul _ _ (closed_symmetric.inv p) (dr_ym_l hP k p m beta f0 hm hb).inv
  · simpa only [ym.thermal.gluon.propagator_t_landau, ym.thermal.gluon.dressing_t_landau, toC_complex, toC_real, ofR_complex, ofReal_one, one_div] using (dr_ym_t hP k p m beta f0 hm hb).inv
  · simpa only [ym.thermal.gluon.propagator_t_landau, ym.thermal.gluon.dressing_t_landau, toC_complex, toC_real, ofR_complex, ofReal_one, one_div] using closed_symmetric.mul _ _ (closed_symmetric.inv p) (dr_ym_t hP k p m beta f0 hm hb).inv
  · simpa only [ym.thermal.zero_momentum.ghost.propagator_landau, ym.thermal.zero_momentum.ghost.dressing_landau, toC_complex, toC_real, ofR_complex, ofReal_one, one_div] using (dr_zm_ym_ghost hP k m beta f0 hm hb).inv
  · simpa only [ym.thermal.zero_momentum.ghost.propagator_landau, ym.thermal.zero_momentum.ghost.dressing_landau, toC_complex, toC_real, ofR_complex, ofReal_one, one_div] using closed_symmetric.mul _ _ (closed_symmetric.inv0) (dr_zm_ym_ghost hP k m beta f0 hm hb).inv
  · simpa only [ym.thermal.zero_momentum.gluon.propagator_l_landau, ym.thermal.zero_momentum.gluon.dressing_l_landau, toC_complex, toC_real, ofR_complex, ofReal_one, one_div] using (dr_zm_ym_l hP k m beta f0 hm hb).inv
  · simpa only [ym.thermal.zero_momentum.gluon.propagator_l_landau, ym.thermal.zero_momentum.gluon.dressing_l_landau, toC_complex, toC_real, ofR_complex, ofReal_one, one_div] using closed_symmetric.mul _ _ (closed_symmetric.inv0) (dr_zm_ym_l hP k m beta f0 hm hb).inv
  · simpa only [ym.thermal.zero_momentum.gluon.propagator_t_landau, ym.thermal.zero_momentum.gluon.dressing_t_landau, toC_complex, toC_real, ofR_complex, ofReal_one, one_div] using (dr_zm_ym_t hP k m beta f0 hm hb).inv
  · simpa only [ym.thermal.zero_momentum.gluon.propagator_t_landau, ym.thermal.zero_momentum.gluon.dressing_t_landau, toC_complex, toC_real, ofR_complex, ofReal_one, one_div] using closed_symmetric.mul _ _ (closed_symmetric.inv0) (dr_zm_ym_t hP k m beta f0 hm hb).inv

/-- **C93** (dressing functions and propagators): Yang-Mills ghost and gluon; off the imaginary axis the only
singularities are the zeros of the inverse dressing function. -/
theorem C93_propagators_ym_analytic (k : Consts ℝ) (p m beta f0 : ℝ) (hm : m ≠ 0) (hb : 0 < beta) (om : ℂ) (ho : om.re ≠ 0) :
    (ym.thermal.gluon.dressing_l_inv_landau .exact k om p m beta f0 ≠ 0 →
      DifferentiableAt ℂ (fun om => ym.thermal.gluon.dressing_l_landau .exact k om p m beta f0) om ∧
      DifferentiableAt ℂ (fun om => ym.thermal.gluon.propagator_l_landau .exact k om p m beta f0) om) ∧
    (ym.thermal.gluon.dressing_t_inv_landau .exact k om p m beta f0 ≠ 0 →
      DifferentiableAt ℂ (fun om => ym.thermal.gluon.dressing_t_landau .exact k om p m beta f0) om ∧
      DifferentiableAt ℂ (fun om => ym.thermal.gluon.propagator_t_landau .exact k om p m beta f0) om) ∧
    (ym.thermal.zero_momentum.ghost.dressing_inv_landau .exact k om m beta f0 ≠ 0 →
      DifferentiableAt ℂ (fun om => ym.thermal.zero_momentum.ghost.dressing_landau .exact k om m beta f0) om ∧
      DifferentiableAt ℂ (fun om => ym.thermal.zero_momentum.ghost.propagator_landau .exact k om m beta f0) om) ∧
    (ym.thermal.zero_momentum.gluon.dressing_l_inv_landau .exact k om m beta f0 ≠ 0 →
      DifferentiableAt ℂ (fun om => ym.thermal.zero_momentum.gluon.dressing_l_landau .exact k om m beta f0) om ∧
      DifferentiableAt ℂ (fun om => ym.thermal.zero_momentum.gluon.propagator_l_landau .exact k om m beta f0) om) ∧
    (ym.thermal.zero_momentum.gluon.dressing_t_inv_landau .exact k om m beta f0 ≠ 0 →
      DifferentiableAt ℂ (fun om => ym.thermal.zero_momentum.gluon.dressing_t_landau .exact k om m beta f0) om ∧
      DifferentiableAt ℂ (fun om => ym.thermal.zero_momentum.gluon.propagator_t_landau .exact k om m beta f0) om) := by
  have hP := admissible_analytic
  refine ⟨?_, ?_, ?_, ?_, ?_⟩
  · intro h
    have hd := ((dr_ym_l hP k p m beta f0 hm hb).holomorphic om ho).fun_inv h
    have hp := (inv_freq_differentiable p ho).mul hd
    simp only [ym.thermal.gluon.propagator_l_landau, ym.thermal.gluon.dressing_l_landau, toC_complex, toC_real, ofR_complex, ofReal_one, one_div]
    exact ⟨hd, hp⟩
  · intro h
    have hd := ((dr_ym_t hP k p m beta f0 hm hb).holomorphic om ho).fun_inv h
    have hp := (inv_freq_differentiable p ho).mul hd
    simp only [ym.thermal.gluon.propagator_t_landau, ym.thermal.gluon.dressing_t_landau, toC_complex, toC_real, ofR_complex, ofReal_one, one_div]
    exact ⟨hd, hp⟩
  · intro h
    have hd := ((dr_zm_ym_ghost hP k m beta f0 hm hb).holomorphic om ho).fun_inv h
    have hp := (inv_freq0_differentiable ho).mul hd
    simp only [ym.thermal.zero_momentum.ghost.propagator_landau, ym.thermal.zero_momentum.ghost.dressing_landau, toC_complex, toC_real, ofR_complex, ofReal_one, one_div]
    exact ⟨hd, hp⟩
  · intro h
    have hd := ((dr_zm_ym_l hP k m beta f0 hm hb).holomorphic om ho).fun_inv h
    have hp := (inv_freq0_differentiable ho).mul hd
    simp only [ym.thermal.zero_momentum.gluon.propagator_l_landau, ym.thermal.zero_momentum.gluon.dressing_l_landau, toC_complex, toC_real, ofR_complex, ofReal_one, one_div]
    exact ⟨hd, hp⟩
  · intro h
    have hd := ((dr_zm_ym_t hP k m beta f0 hm hb).holomorphic om ho).fun_inv h
    have hp := (inv_freq0_differentiable ho).mul hd
    simp only [ym.thermal.zero_momentum.gluon.propagator_t_landau, ym.thermal.zero_momentum.gluon.dressing_t_landau, toC_complex, toC_real, ofR_complex, ofReal_one, one_div]
    exact ⟨hd, hp⟩

/-- **C93** (dressing functions and propagators): QCD gluon, one quark mass. -/
theorem C93_propagators_qcd_symmetric {ig : Integrator} (hi : ig.Interior) (hc : ig.Conj) (k : Consts ℝ) (p m mq beta mu f0 : ℝ) (hm : m ≠ 0) (hq : mq ≠ 0) (hb : 0 < beta) :
    Symmetric (fun om => qcd.thermal.gluon.dressing_l_landau ig k om p m mq beta mu f0) ∧
    Symmetric (fun om => qcd.thermal.gluon.propagator_l_landau ig k om p m mq beta mu f0) ∧
    Symmetric (fun om => qcd.thermal.gluon.dressing_t_landau ig k om p m mq beta mu f0) ∧
    Symmetric (fun om => qcd.thermal.gluon.propagator_t_landau ig k om p m mq beta mu f0) ∧
    Symmetric (fun om => qcd.thermal.zero_momentum.gluon.dressing_l_landau ig k om m mq beta mu f0) ∧
    Symmetric (fun om => qcd.thermal.zero_momentum.gluon.propagator_l_landau ig k om m mq beta mu f0) ∧
    Symmetric (fun om => qcd.thermal.zero_momentum.gluon.dressing_t_landau ig k om m mq beta mu f0) ∧
    Symmetric (fun om => qcd.thermal.zero_momentum.gluon.propagator_t_landau ig k om m mq beta mu f0) := by
  have hP := admissible_symmetric hi hc
  refine ⟨?_, ?_, ?_, ?_, ?_, ?_, ?_, ?_⟩
  · simpa only [qcd.thermal.gluon.propagator_l_landau, qcd.thermal.gluon.dressing_l_landau, toC_complex, toC_real, ofR_complex, ofReal_one, one_div] using (dr_qcd_l hP k p m mq beta mu f0 hm hq hb).inv
  · simpa only [qcd.thermal.gluon.propagator_l_landau, qcd.thermal.gluon.dressing_l_landau, toC_complex, toC_real, ofR_complex, ofReal_one, one_div] using closed_symmetric.mul _ _ (closed_symmetric.inv p) (dr_qcd_l hP k p m mq beta mu f0 hm hq hb).inv
  · simpa only [qcd.thermal.gluon.propagator_t_landau, qcd.thermal.gluon.dressing_t_landau, toC_complex, toC_real, ofR_complex, ofReal_one, one_div] using (dr_qcd_t hP k p m mq beta mu f0 hm hq hb).inv
  · simpa only [qcd.thermal.gluon.propagator_t_landau, qcd.thermal.gluon.dressing_t_landau, toC_complex, toC_real, ofR_complex, ofReal_one, one_div] using closed_symmetric.mul _ _ (closed_symmetric.inv p) (dr_qcd_t hP k p m mq beta mu f0 hm hq hb).inv
  · simpa only [qcd.thermal.zero_momentum.gluon.propagator_l_landau, qcd.thermal.zero_momentum.gluon.dressing_l_landau, toC_complex, toC_real, ofR_complex, ofReal_one, one_div] using (dr_zm_qcd_l hP k m mq beta mu f0 hm hq hb).inv
  · simpa only [qcd.thermal.zero_momentum.gluon.propagator_l_landau, qcd.thermal.zero_momentum.gluon.dressing_l_landau, toC_complex, toC_real, ofR_complex, ofReal_one, one_div] using closed_symmetric.mul _ _ (closed_symmetric.inv0) (dr_zm_qcd_l hP k m mq beta mu f0 hm hq hb).inv
  · simpa only [qcd.thermal.zero_momentum.gluon.propagator_t_landau, qcd.thermal.zero_momentum.gluon.dressing_t_landau, toC_complex, toC_real, ofR_complex, ofReal_one, one_div] using (dr_zm_qcd_t hP k m mq beta mu f0 hm hq hb).inv
  · simpa only [qcd.thermal.zero_momentum.gluon.propagator_t_landau, qcd.thermal.zero_momentum.gluon.dressing_t_landau, toC_complex, toC_real, ofR_complex, ofReal_one, one_div] using closed_symmetric.mul _ _ (closed_symmetric.inv0) (dr_zm_qcd_t hP k m mq beta mu f0 hm hq hb).inv

/-- **C93** (dressing functions and propagators): QCD gluon, one quark mass; off the imaginary axis the only
singularities are the zeros of the inverse dressing function. -/
theorem C93_propagators_qcd_analytic (k : Consts ℝ) (p m mq beta mu f0 : ℝ) (hm : m ≠ 0) (hq : mq ≠ 0) (hb : 0 < beta) (om : ℂ) (ho : om.re ≠ 0) :
    (qcd.thermal.gluon.dressing_l_inv_landau .exact k om p m mq beta mu f0 ≠ 0 →
      DifferentiableAt ℂ (fun om => qcd.thermal.gluon.dressing_l_landau .exact k om p m mq beta mu f0) om ∧
      DifferentiableAt ℂ (fun om => qcd.thermal.gluon.propagator_l_landau .exact k om p m mq beta mu f0) om) ∧
    (qcd.thermal.gluon.dressing_t_inv_landau .exact k om p m mq beta mu f0 ≠ 0 →
      DifferentiableAt ℂ (fun om => qcd.thermal.gluon.dressing_t_landau .exact k om p m mq beta mu f0) om ∧
      DifferentiableAt ℂ (fun om => qcd.thermal.gluon.propagator_t_landau .exact k om p m mq beta mu f0) om) ∧
    (qcd.thermal.zero_momentum.gluon.dressing_l_inv_landau .exact k om m mq beta mu f0 ≠ 0 →
      DifferentiableAt ℂ (fun om => qcd.thermal.zero_momentum.gluon.dressing_l_landau .exact k om m mq beta mu f0) om ∧
      DifferentiableAt ℂ (fun om => qcd.thermal.zero_momentum.gluon.propagator_l_landau .exact k om m mq beta mu f0) om) ∧
    (qcd.thermal.zero_momentum.gluon.dressing_t_inv_landau .exact k om m mq beta mu f0 ≠ 0 →
      DifferentiableAt ℂ (fun om => qcd.thermal.zero_momentum.gluon.dressing_t_landau .exact k om m mq beta mu f0) om ∧
      DifferentiableAt ℂ (fun om => qcd.thermal.zero_momentum.gluon.propagator_t_landau .exact k om m mq beta mu f0) om) := by
  have hP := admissible_analytic
  refine ⟨?_, ?_, ?_, ?_⟩
  · intro h
    have hd := ((dr_qcd_l hP k p m mq beta mu f0 hm hq hb).holomorphic om ho).fun_inv h
    have hp := (inv_freq_differentiable p ho).mul hd
    simp only [qcd.thermal.gluon.propagator_l_landau, qcd.thermal.gluon.dressing_l_landau, toC_complex, toC_real, ofR_complex, ofReal_one, one_div]
    exact ⟨hd, hp⟩
  · intro h
    have hd := ((dr_qcd_t hP k p m mq beta mu f0 hm hq hb).holomorphic om ho).fun_inv h
    have hp := (inv_freq_differentiable p ho).mul hd
    simp only [qcd.thermal.gluon.propagator_t_landau, qcd.thermal.gluon.dressing_t_landau, toC_complex, toC_real, ofR_complex, ofReal_one, one_div]
    exact ⟨hd, hp⟩
  · intro h
    have hd := ((dr_zm_qcd_l hP k m mq beta mu f0 hm hq hb).holomorphic om ho).fun_inv h
    have hp := (inv_freq0_differentiable ho).mul hd
    simp only [qcd.thermal.zero_momentum.gluon.propagator_l_landau, qcd.thermal.zero_momentum.gluon.dressing_l_landau, toC_complex, toC_real, ofR_complex, ofReal_one, one_div]
    exact ⟨hd, hp⟩
  · intro h
    have hd := ((dr_zm_qcd_t hP k m mq beta mu f0 hm hq hb).holomorphic om ho).fun_inv h
    have hp := (inv_freq0_differentiable ho).mul hd
    simp only [qcd.thermal.zero_momentum.gluon.propagator_t_landau, qcd.thermal.zero_momentum.gluon.dressing_t_landau, toC_complex, toC_real, ofR_complex, ofReal_one, one_div]
    exact ⟨hd, hp⟩

/-- **C93** (dressing functions and propagators): QCD gluon at zero temperature, one quark mass. -/
theorem C93_propagators_qcd_zero_temp_symmetric {ig : Integrator} (hi : ig.Interior) (hc : ig.Conj) (k : Consts ℝ) (p m mq mu f0 : ℝ) (hm : m ≠ 0) (hq : mq ≠ 0) :
    Symmetric (fun om => qcd.thermal.gluon.dressing_l_zero_temp_landau ig k om p m mq mu f0) ∧
    Symmetric (fun om => qcd.thermal.gluon.propagator_l_zero_temp_landau ig k om p m mq mu f0) ∧
    Symmetric (fun om => qcd.thermal.gluon.dressing_t_zero_temp_landau ig k om p m mq mu f0) ∧
    Symmetric (fun om => qcd.thermal.gluon.propagator_t_zero_temp_landau ig k om p m mq mu f0) ∧
    Symmetric (fun om => qcd.thermal.zero_momentum.gluon.dressing_l_zero_temp_landau ig k om m mq mu f0) ∧
    Symmetric (fun om => qcd.thermal.zero_momentum.gluon.propagator_l_zero_temp_landau ig k om m mq mu f0) ∧
    Symmetric (fun om => qcd.thermal.zero_momentum.gluon.dressing_t_zero_temp_landau ig k om m mq mu f0) ∧
    Symmetric (fun om => qcd.thermal.zero_momentum.gluon.propagator_t_zero_temp_landau ig k om m mq mu f0) := by
  have hP := admissible_symmetric hi hc
  refine ⟨?_, ?_, ?_, ?_, ?_, ?_, ?_, ?_⟩
  · simpa only [qcd.thermal.gluon.propagator_l_zero_temp_landau, qcd.thermal.gluon.dressing_l_zero_temp_landau, toC_complex, toC_real, ofR_complex, ofReal_one, one_div] using (dr_qcd0_l hP k p m mq mu f0 hm hq).inv
  · simpa only [qcd.thermal.gluon.propagator_l_zero_temp_landau, qcd.thermal.gluon.dressing_l_zero_temp_landau, toC_complex, toC_real, ofR_complex, ofReal_one, one_div] using closed_symmetric.mul _ _ (closed_symmetric.inv p) (dr_qcd0_l hP k p m mq mu f0 hm hq).inv
  · simpa only [qcd.thermal.gluon.propagator_t_zero_temp_landau, qcd.thermal.gluon.dressing_t_zero_temp_landau, toC_complex, toC_real, ofR_complex, ofReal_one, one_div] using (dr_qcd0_t hP k p m mq mu f0 hm hq).inv
  · simpa only [qcd.thermal.gluon.propagator_t_zero_temp_landau, qcd.thermal.gluon.dressing_t_zero_temp_landau, toC_complex, toC_real, ofR_complex, ofReal_one, one_div] using closed_symmetric.mul _ _ (closed_symmetric.inv p) (dr_qcd0_t hP k p m mq mu f0 hm hq).inv
  · simpa only [qcd.thermal.zero_momentum.gluon.propagator_l_zero_temp_landau, qcd.thermal.zero_momentum.gluon.dressing_l_zero_temp_landau, toC_complex, toC_real, ofR_complex, ofReal_one, one_div] using (dr_zm_qcd0_l hP k m mq mu f0 hm hq).inv
  · simpa only [qcd.thermal.zero_momentum.gluon.propagator_l_zero_temp_landau, qcd.thermal.zero_momentum.gluon.dressing_l_zero_temp_landau, toC_complex, toC_real, ofR_complex, ofReal_one, one_div] using closed_symmetric.mul _ _ (closed_symmetric.inv0) (dr_zm_qcd0_l hP k m mq mu f0 hm hq).inv
  · simpa only [qcd.thermal.zero_momentum.gluon.propagator_t_zero_temp_landau, qcd.thermal.zero_momentum.gluon.dressing_t_zero_temp_landau, toC_complex, toC_real, ofR_complex, ofReal_one, one_div] using (dr_zm_qcd0_t hP k m mq mu f0 hm hq).inv
  · simpa only [qcd.thermal.zero_momentum.gluon.propagator_t_zero_temp_landau, qcd.thermal.zero_momentum.gluon.dressing_t_zero_temp_landau, toC_complex, toC_real, ofR_complex, ofReal_one, one_div] using closed_symmetric.mul _ _ (closed_symmetric.inv0) (dr_zm_qcd0_t hP k m mq mu f0 hm hq).inv

/-- **C93** (dressing functions and propagators): QCD gluon at zero temperature, one quark mass; off the imaginary axis the only
singularities are the zeros of the inverse dressing function. -/
theorem C93_propagators_qcd_zero_temp_analytic (k : Consts ℝ) (p m mq mu f0 : ℝ) (hm : m ≠ 0) (hq : mq ≠ 0) (om : ℂ) (ho : om.re ≠ 0) :
    (qcd.thermal.gluon.dressing_l_inv_zero_temp_landau .exact k om p m mq mu f0 ≠ 0 →
      DifferentiableAt ℂ (fun om => qcd.thermal.gluon.dressing_l_zero_temp_landau .exact k om p m mq mu f0) om ∧
      DifferentiableAt ℂ (fun om => qcd.thermal.gluon.propagator_l_zero_temp_landau .exact k om p m mq mu f0) om) ∧
    (qcd.thermal.gluon.dressing_t_inv_zero_temp_landau .exact k om p m mq mu f0 ≠ 0 →
      DifferentiableAt ℂ (fun om => qcd.thermal.gluon.dressing_t_zero_temp_landau .exact k om p m mq mu f0) om ∧
      DifferentiableAt ℂ (fun om => qcd.thermal.gluon.propagator_t_zero_temp_landau .exact k om p m mq mu f0) om) ∧
    (qcd.thermal.zero_momentum.gluon.dressing_l_inv_zero_temp_landau .exact k om m mq mu f0 ≠ 0 →
      DifferentiableAt ℂ (fun om => qcd.thermal.zero_momentum.gluon.dressing_l_zero_temp_landau .exact k om m mq mu f0) om ∧
      DifferentiableAt ℂ (fun om => qcd.thermal.zero_momentum.gluon.propagator_l_zero_temp_landau .exact k om m mq mu f0) om) ∧
    (qcd.thermal.zero_momentum.gluon.dressing_t_inv_zero_temp_landau .exact k om m mq mu f0 ≠ 0 →
      DifferentiableAt ℂ (fun om => qcd.thermal.zero_momentum.gluon.dressing_t_zero_temp_landau .exact k om m mq mu f0) om ∧
      DifferentiableAt ℂ (fun om => qcd.thermal.zero_momentum.gluon.propagator_t_zero_temp_landau .exact k om m mq mu f0) om) := by
  have hP := admissible_analytic
  refine ⟨?_, ?_, ?_, ?_⟩
  · intro h
    have hd := ((dr_qcd0_l hP k p m mq mu f0 hm hq).holomorphic om ho).fun_inv h
    have hp := (inv_freq_differentiable p ho).mul hd
    simp only [qcd.thermal.gluon.propagator_l_zero_temp_landau, qcd.thermal.gluon.dressing_l_zero_temp_landau, toC_complex, toC_real, ofR_complex, ofReal_one, one_div]
    exact ⟨hd, hp⟩
  · intro h
    have hd := ((dr_qcd0_t hP k p m mq mu f0 hm hq).holomorphic om ho).fun_inv h
    have hp := (inv_freq_differentiable p ho).mul hd
    simp only [qcd.thermal.gluon.propagator_t_zero_temp_landau, qcd.thermal.gluon.dressing_t_zero_temp_landau, toC_complex, toC_real, ofR_complex, ofReal_one, one_div]
    exact ⟨hd, hp⟩
  · intro h
    have hd := ((dr_zm_qcd0_l hP k m mq mu f0 hm hq).holomorphic om ho).fun_inv h
    have hp := (inv_freq0_differentiable ho).mul hd
    simp only [qcd.thermal.zero_momentum.gluon.propagator_l_zero_temp_landau, qcd.thermal.zero_momentum.gluon.dressing_l_zero_temp_landau, toC_complex, toC_real, ofR_complex, ofReal_one, one_div]
    exact ⟨hd, hp⟩
  · intro h
    have hd := ((dr_zm_qcd0_t hP k m mq mu f0 hm hq).holomorphic om ho).fun_inv h
    have hp := (inv_freq0_differentiable ho).mul hd
    simp only [qcd.thermal.zero_momentum.gluon.propagator_t_zero_temp_landau, qcd.thermal.zero_momentum.gluon.dressing_t_zero_temp_landau, toC_complex, toC_real, ofR_complex, ofReal_one, one_div]
    exact ⟨hd, hp⟩

/-- **C93** (dressing functions and propagators): QCD gluon, any field configuration. -/
theorem C93_propagators_field_config_symmetric {ig : Integrator} (hi : ig.Interior) (hc : ig.Conj) (k : Consts ℝ) (p beta mu f0 : ℝ) (nc : ℕ) (m : ℝ) (qs : List (ℕ × ℝ)) (hm : m ≠ 0) (hq : ∀ q ∈ qs, q.2 ≠ 0) (hb : 0 < beta) :
    Symmetric (fun om => qcd.thermal.gluon.dressing_l_landau_w_field_config ig k om p beta mu f0 (FieldConfig.new nc m qs)) ∧
    Symmetric (fun om => qcd.thermal.gluon.propagator_l_landau_w_field_config ig k om p beta mu f0 (FieldConfig.new nc m qs)) ∧
    Symmetric (fun om => qcd.thermal.gluon.dressing_t_landau_w_field_config ig k om p beta mu f0 (FieldConfig.new nc m qs)) ∧
    Symmetric (fun om => qcd.thermal.gluon.propagator_t_landau_w_field_config ig k om p beta mu f0 (FieldConfig.new nc m qs)) ∧
    Symmetric (fun om => qcd.thermal.zero_momentum.gluon.dressing_l_landau_w_field_config ig k om beta mu f0 (FieldConfig.new nc m qs)) ∧
    Symmetric (fun om => qcd.thermal.zero_momentum.gluon.propagator_l_landau_w_field_config ig k om beta mu f0 (FieldConfig.new nc m qs)) ∧
    Symmetric (fun om => qcd.thermal.zero_momentum.gluon.dressing_t_landau_w_field_config ig k om beta mu f0 (FieldConfig.new nc m qs)) ∧
    Symmetric (fun om => qcd.thermal.zero_momentum.gluon.propagator_t_landau_w_field_config ig k om beta mu f0 (FieldConfig.new nc m qs)) := by
  have hP := admissible_symmetric hi hc
  refine ⟨?_, ?_, ?_, ?_, ?_, ?_, ?_, ?_⟩
  · simpa only [qcd.thermal.gluon.propagator_l_landau_w_field_config, qcd.thermal.gluon.dressing_l_landau_w_field_config, toC_complex, toC_real, ofR_complex, ofReal_one, one_div] using (dr_cfg_l hP k p beta mu f0 nc m qs hm hq hb).inv
  · simpa only [qcd.thermal.gluon.propagator_l_landau_w_field_config, qcd.thermal.gluon.dressing_l_landau_w_field_config, toC_complex, toC_real, ofR_complex, ofReal_one, one_div] using closed_symmetric.mul _ _ (closed_symmetric.inv p) (dr_cfg_l hP k p beta mu f0 nc m qs hm hq hb).inv
  · simpa only [qcd.thermal.gluon.propagator_t_landau_w_field_config, qcd.thermal.gluon.dressing_t_landau_w_field_config, toC_complex, toC_real, ofR_complex, ofReal_one, one_div] using (dr_cfg_t hP k p beta mu f0 nc m qs hm hq hb).inv
  · simpa only [qcd.thermal.gluon.propagator_t_landau_w_field_config, qcd.thermal.gluon.dressing_t_landau_w_field_config, toC_complex, toC_real, ofR_complex, ofReal_one, one_div] using closed_symmetric.mul _ _ (closed_symmetric.inv p) (dr_cfg_t hP k p beta mu f0 nc m qs hm hq hb).inv
  · simpa only [qcd.thermal.zero_momentum.gluon.propagator_l_landau_w_field_config, qcd.thermal.zero_momentum.gluon.dressing_l_landau_w_field_config, toC_complex, toC_real, ofR_complex, ofReal_one, one_div] using (dr_zm_cfg_l hP k beta mu f0 nc m qs hm hq hb).inv
  · simpa only [qcd.thermal.zero_momentum.gluon.propagator_l_landau_w_field_config, qcd.thermal.zero_momentum.gluon.dressing_l_landau_w_field_config, toC_complex, toC_real, ofR_complex, ofReal_one, one_div] using closed_symmetric.mul _ _ (closed_symmetric.inv0) (dr_zm_cfg_l hP k beta mu f0 nc m qs hm hq hb).inv
  · simpa only [qcd.thermal.zero_momentum.gluon.propagator_t_landau_w_field_config, qcd.thermal.zero_momentum.gluon.dressing_t_landau_w_field_config, toC_complex, toC_real, ofR_complex, ofReal_one, one_div] using (dr_zm_cfg_t hP k beta mu f0 nc m qs hm hq hb).inv
  · simpa only [qcd.thermal.zero_momentum.gluon.propagator_t_landau_w_field_config, qcd.thermal.zero_momentum.gluon.dressing_t_landau_w_field_config, toC_complex, toC_real, ofR_complex, ofReal_one, one_div] using closed_symmetric.mul _ _ (closed_symmetric.inv0) (dr_zm_cfg_t hP k beta mu f0 nc m qs hm hq hb).inv

/-- **C93** (dressing functions and propagators): QCD gluon, any field configuration; off the imaginary axis the only
singularities are the zeros of the inverse dressing function. -/
theorem C93_propagators_field_config_analytic (k : Consts ℝ) (p beta mu f0 : ℝ) (nc : ℕ) (m : ℝ) (qs : List (ℕ × ℝ)) (hm : m ≠ 0) (hq : ∀ q ∈ qs, q.2 ≠ 0) (hb : 0 < beta) (om : ℂ) (ho : om.re ≠ 0) :
    (qcd.thermal.gluon.dressing_l_inv_landau_w_field_config .exact k om p beta mu f0 (FieldConfig.new nc m qs) ≠ 0 →
      DifferentiableAt ℂ (fun om => qcd.thermal.gluon.dressing_l_landau_w_field_config .exact k om p beta mu f0 (FieldConfig.new nc m qs)) om ∧
      DifferentiableAt ℂ (fun om => qcd.thermal.gluon.propagator_l_landau_w_field_config .exact k om p beta mu f0 (FieldConfig.new nc m qs)) om) ∧
    (qcd.thermal.gluon.dressing_t_inv_landau_w_field_config .exact k om p beta mu f0 (FieldConfig.new nc m qs) ≠ 0 →
      DifferentiableAt ℂ (fun om => qcd.thermal.gluon.dressing_t_landau_w_field_config .exact k om p beta mu f0 (FieldConfig.new nc m qs)) om ∧
      DifferentiableAt ℂ (fun om => qcd.thermal.gluon.propagator_t_landau_w_field_config .exact k om p beta mu f0 (FieldConfig.new nc m qs)) om) ∧
    (qcd.thermal.zero_momentum.gluon.dressing_l_inv_landau_w_field_config .exact k om beta mu f0 (FieldConfig.new nc m qs) ≠ 0 →
      DifferentiableAt ℂ (fun om => qcd.thermal.zero_momentum.gluon.dressing_l_landau_w_field_config .exact k om beta mu f0 (FieldConfig.new nc m qs)) om ∧
      DifferentiableAt ℂ (fun om => qcd.thermal.zero_momentum.gluon.propagator_l_landau_w_field_config .exact k om beta mu f0 (FieldConfig.new nc m qs)) om) ∧
    (qcd.thermal.zero_momentum.gluon.dressing_t_inv_landau_w_field_config .exact k om beta mu f0 (FieldConfig.new nc m qs) ≠ 0 →
      DifferentiableAt ℂ (fun om => qcd.thermal.zero_momentum.gluon.dressing_t_landau_w_field_config .exact k om beta mu f0 (FieldConfig.new nc m qs)) om ∧
      DifferentiableAt ℂ (fun om => qcd.thermal.zero_momentum.gluon.propagator_t_landau_w_field_config .exact k om beta mu f0 (FieldConfig.new nc m qs)) om) := by
  have hP := admissible_analytic
  refine ⟨?_, ?_, ?_, ?_⟩
  · intro h
    have hd := ((dr_cfg_l hP k p beta mu f0 nc m qs hm hq hb).holomorphic om ho).fun_inv h
    have hp := (inv_freq_differentiable p ho).mul hd
    simp only [qcd.thermal.gluon.propagator_l_landau_w_field_config, qcd.thermal.gluon.dressing_l_landau_w_field_config, toC_complex, toC_real, ofR_complex, ofReal_one, one_div]
    exact ⟨hd, hp⟩
  · intro h
    have hd := ((dr_cfg_t hP k p beta mu f0 nc m qs hm hq hb).holomorphic om ho).fun_inv h
    have hp := (inv_freq_differentiable p ho).mul hd
    simp only [qcd.thermal.gluon.propagator_t_landau_w_field_config, qcd.thermal.gluon.dressing_t_landau_w_field_config, toC_complex, toC_real, ofR_complex, ofReal_one, one_div]
    exact ⟨hd, hp⟩
  · intro h
    have hd := ((dr_zm_cfg_l hP k beta mu f0 nc m qs hm hq hb).holomorphic om ho).fun_inv h
    have hp := (inv_freq0_differentiable ho).mul hd
    simp only [qcd.thermal.zero_momentum.gluon.propagator_l_landau_w_field_config, qcd.thermal.zero_momentum.gluon.dressing_l_landau_w_field_config, toC_complex, toC_real, ofR_complex, ofReal_one, one_div]
    exact ⟨hd, hp⟩
  · intro h
    have hd := ((dr_zm_cfg_t hP k beta mu f0 nc m qs hm hq hb).holomorphic om ho).fun_inv h
    have hp := (inv_freq0_differentiable ho).mul hd
    simp only [qcd.thermal.zero_momentum.gluon.propagator_t_landau_w_field_config, qcd.thermal.zero_momentum.gluon.dressing_t_landau_w_field_config, toC_complex, toC_real, ofR_complex, ofReal_one, one_div]
    exact ⟨hd, hp⟩

/-- **C93** (dressing functions and propagators): QCD gluon at zero temperature, any field configuration. -/
theorem C93_propagators_field_config_zero_temp_symmetric {ig : Integrator} (hi : ig.Interior) (hc : ig.Conj) (k : Consts ℝ) (p mu f0 : ℝ) (nc : ℕ) (m : ℝ) (qs : List (ℕ × ℝ)) (hm : m ≠ 0) (hq : ∀ q ∈ qs, q.2 ≠ 0) :
    Symmetric (fun om => qcd.thermal.gluon.dressing_l_zero_temp_landau_w_field_config ig k om p mu f0 (FieldConfig.new nc m qs)) ∧
    Symmetric (fun om => qcd.thermal.gluon.propagator_l_zero_temp_landau_w_field_config ig k om p mu f0 (FieldConfig.new nc m qs)) ∧
    Symmetric (fun om => qcd.thermal.gluon.dressing_t_zero_temp_landau_w_field_config ig k om p mu f0 (FieldConfig.new nc m qs)) ∧
    Symmetric (fun om => qcd.thermal.gluon.propagator_t_zero_temp_landau_w_field_config ig k om p mu f0 (FieldConfig.new nc m qs)) ∧
    Symmetric (fun om => qcd.thermal.zero_momentum.gluon.dressing_l_zero_temp_landau_w_field_config ig k om mu f0 (FieldConfig.new nc m qs)) ∧
    Symmetric (fun om => qcd.thermal.zero_momentum.gluon.propagator_l_zero_temp_landau_w_field_config ig k om mu f0 (FieldConfig.new nc m qs)) ∧
    Symmetric (fun om => qcd.thermal.zero_momentum.gluon.dressing_t_zero_temp_landau_w_field_config ig k om mu f0 (FieldConfig.new nc m qs)) ∧
    Symmetric (fun om => qcd.thermal.zero_momentum.gluon.propagator_t_zero_temp_landau_w_field_config ig k om mu f0 (FieldConfig.new nc m qs)) := by
  have hP := admissible_symmetric hi hc
  refine ⟨?_, ?_, ?_, ?_, ?_, ?_, ?_, ?_⟩
  · simpa only [qcd.thermal.gluon.propagator_l_zero_temp_landau_w_field_config, qcd.thermal.gluon.dressing_l_zero_temp_landau_w_field_config, toC_complex, toC_real, ofR_complex, ofReal_one, one_div] using (dr_cfg0_l hP k p mu f0 nc m qs hm hq).inv
  · simpa only [qcd.thermal.gluon.propagator_l_zero_temp_landau_w_field_config, qcd.thermal.gluon.dressing_l_zero_temp_landau_w_field_config, toC_complex, toC_real, ofR_complex, ofReal_one, one_div] using closed_symmetric.mul _ _ (closed_symmetric.inv p) (dr_cfg0_l hP k p mu f0 nc m qs hm hq).inv
  · simpa only [qcd.thermal.gluon.propagator_t_zero_temp_landau_w_field_config, qcd.thermal.gluon.dressing_t_zero_temp_landau_w_field_config, toC_complex, toC_real, ofR_complex, ofReal_one, one_div] using (dr_cfg0_t hP k p mu f0 nc m qs hm hq).inv
  · simpa only [qcd.thermal.gluon.propagator_t_zero_temp_landau_w_field_config, qcd.thermal.gluon.dressing_t_zero_temp_landau_w_field_config, toC_complex, toC_real, ofR_complex, ofReal_one, one_div] using closed_symmetric.mul _ _ (closed_symmetric.inv p) (dr_cfg0_t hP k p mu f0 nc m qs hm hq).inv
  · simpa only [qcd.thermal.zero_momentum.gluon.propagator_l_zero_temp_landau_w_field_config, qcd.thermal.zero_momentum.gluon.dressing_l_zero_temp_landau_w_field_config, toC_complex, toC_real, ofR_complex, ofReal_one, one_div] using (dr_zm_cfg0_l hP k mu f0 nc m qs hm hq).inv
  · simpa only [qcd.thermal.zero_momentum.gluon.propagator_l_zero_temp_landau_w_field_config, qcd.thermal.zero_momentum.gluon.dressing_l_zero_temp_landau_w_field_config, toC_complex, toC_real, ofR_complex, ofReal_one, one_div] using closed_symmetric.mul _ _ (closed_symmetric.inv0) (dr_zm_cfg0_l hP k mu f0 nc m qs hm hq).inv
  · simpa only [qcd.thermal.zero_momentum.gluon.propagator_t_zero_temp_landau_w_field_config, qcd.thermal.zero_momentum.gluon.dressing_t_zero_temp_landau_w_field_config, toC_complex, toC_real, ofR_complex, ofReal_one, one_div] using (dr_zm_cfg0_t hP k mu f0 nc m qs hm hq).inv
  · simpa only [qcd.thermal.zero_momentum.gluon.propagator_t_zero_temp_landau_w_field_config, qcd.thermal.zero_momentum.gluon.dressing_t_zero_temp_landau_w_field_config, toC_complex, toC_real, ofR_complex, ofReal_one, one_div] using closed_symmetric.mul _ _ (closed_symmetric.inv0) (dr_zm_cfg0_t hP k mu f0 nc m qs hm hq).inv

/-- **C93** (dressing functions and propagators): QCD gluon at zero temperature, any field configuration; off the imaginary axis the only
singularities are the zeros of the inverse dressing function. -/
theorem C93_propagators_field_config_zero_temp_analytic (k : Consts ℝ) (p mu f0 : ℝ) (nc : ℕ) (m : ℝ) (qs : List (ℕ × ℝ)) (hm : m ≠ 0) (hq : ∀ q ∈ qs, q.2 ≠ 0) (om : ℂ) (ho : om.re ≠ 0) :
    (qcd.thermal.gluon.dressing_l_inv_zero_temp_landau_w_field_config .exact k om p mu f0 (FieldConfig.new nc m qs) ≠ 0 →
      DifferentiableAt ℂ (fun om => qcd.thermal.gluon.dressing_l_zero_temp_landau_w_field_config .exact k om p mu f0 (FieldConfig.new nc m qs)) om ∧
      DifferentiableAt ℂ (fun om => qcd.thermal.gluon.propagator_l_zero_temp_landau_w_field_config .exact k om p mu f0 (FieldConfig.new nc m qs)) om) ∧
    (qcd.thermal.gluon.dressing_t_inv_zero_temp_landau_w_field_config .exact k om p mu f0 (FieldConfig.new nc m qs) ≠ 0 →
      DifferentiableAt ℂ (fun om => qcd.thermal.gluon.dressing_t_zero_temp_landau_w_field_config .exact k om p mu f0 (FieldConfig.new nc m qs)) om ∧
      DifferentiableAt ℂ (fun om => qcd.thermal.gluon.propagator_t_zero_temp_landau_w_field_config .exact k om p mu f0 (FieldConfig.new nc m qs)) om) ∧
    (qcd.thermal.zero_momentum.gluon.dressing_l_inv_zero_temp_landau_w_field_config .exact k om mu f0 (FieldConfig.new nc m qs) ≠ 0 →
      DifferentiableAt ℂ (fun om => qcd.thermal.zero_momentum.gluon.dressing_l_zero_temp_landau_w_field_config .exact k om mu f0 (FieldConfig.new nc m qs)) om ∧
      DifferentiableAt ℂ (fun om => qcd.thermal.zero_momentum.gluon.propagator_l_zero_temp_landau_w_field_config .exact k om mu f0 (FieldConfig.new nc m qs)) om) ∧
    (qcd.thermal.zero_momentum.gluon.dressing_t_inv_zero_temp_landau_w_field_config .exact k om mu f0 (FieldConfig.new nc m qs) ≠ 0 →
      DifferentiableAt ℂ (fun om => qcd.thermal.zero_momentum.gluon.dressing_t_zero_temp_landau_w_field_config .exact k om mu f0 (FieldConfig.new nc m qs)) om ∧
      DifferentiableAt ℂ (fun om => qcd.thermal.zero_momentum.gluon.propagator_t_zero_temp_landau_w_field_config .exact k om mu f0 (FieldConfig.new nc m qs)) om) := by
  have hP := admissible_analytic
  refine ⟨?_, ?_, ?_, ?_⟩
  · intro h
    have hd := ((dr_cfg0_l hP k p mu f0 nc m qs hm hq).holomorphic om ho).fun_inv h
    have hp := (inv_freq_differentiable p ho).mul hd
    simp only [qcd.thermal.gluon.propagator_l_zero_temp_landau_w_field_config, qcd.thermal.gluon.dressing_l_zero_temp_landau_w_field_config, toC_complex, toC_real, ofR_complex, ofReal_one, one_div]
    exact ⟨hd, hp⟩
  · intro h
    have hd := ((dr_cfg0_t hP k p mu f0 nc m qs hm hq).holomorphic om ho).fun_inv h
    have hp := (inv_freq_differentiable p ho).mul hd
    simp only [qcd.thermal.gluon.propagator_t_zero_temp_landau_w_field_config, qcd.thermal.gluon.dressing_t_zero_temp_landau_w_field_config, toC_complex, toC_real, ofR_complex, ofReal_one, one_div]
    exact ⟨hd, hp⟩
  · intro h
    have hd := ((dr_zm_cfg0_l hP k mu f0 nc m qs hm hq).holomorphic om ho).fun_inv h
    have hp := (inv_freq0_differentiable ho).mul hd
    simp only [qcd.thermal.zero_momentum.gluon.propagator_l_zero_temp_landau_w_field_config, qcd.thermal.zero_momentum.gluon.dressing_l_zero_temp_landau_w_field_config, toC_complex, toC_real, ofR_complex, ofReal_one, one_div]
    exact ⟨hd, hp⟩
  · intro h
    have hd := ((dr_zm_cfg0_t hP k mu f0 nc m qs hm hq).holomorphic om ho).fun_inv h
    have hp := (inv_freq0_differentiable ho).mul hd
    simp only [qcd.thermal.zero_momentum.gluon.propagator_t_zero_temp_landau_w_field_config, qcd.thermal.zero_momentum.gluon.dressing_t_zero_temp_landau_w_field_config, toC_complex, toC_real, ofR_complex, ofReal_one, one_div]
    exact ⟨hd, hp⟩

/-! ### The hypotheses are met -/

/-- The exact integral is an integrator of the kind the symmetries ask for. -/
theorem C93_exact_integrator : Integrator.exact.Interior ∧ Integrator.exact.Conj := ⟨exact_interior, exact_conj⟩

/-- A mid-point rule is one, too. -/
example : ({ real := fun f r _ => f ((r.1 + r.2) / 2) * (r.2 - r.1), cplx := fun f r _ => f ((r.1 + r.2) / 2) * ((r.2 - r.1 : ℝ) : ℂ) } : Integrator).Conj :=
  fun f r m => by simp

/-- The QCD gluon of examples/qcd_thermal_gluon_propagator.rs, at a generic complex frequency. -/
example (k : Consts ℝ) :
    qcd.thermal.gluon.dressing_l_inv_landau_w_field_config .exact k (conj (1 + 2 * I : ℂ)) (1 / 2 : ℝ) 4 (3 / 10) (-876 / 1000)
        (FieldConfig.new 3 (656 / 1000) [(2, 35 / 100), (1, 45 / 100)]) =
      conj (qcd.thermal.gluon.dressing_l_inv_landau_w_field_config .exact k (1 + 2 * I : ℂ) (1 / 2 : ℝ) 4 (3 / 10) (-876 / 1000)
        (FieldConfig.new 3 (656 / 1000) [(2, 35 / 100), (1, 45 / 100)])) :=
  (C93_dressing_inv_field_config_symmetric exact_interior exact_conj k (1 / 2) 4 (3 / 10) (-876 / 1000) 3 (656 / 1000)
    [(2, 35 / 100), (1, 45 / 100)] (by norm_num) (by intro q hq; fin_cases hq <;> norm_num) (by norm_num)).1.reflects _ (by simp)

end Qcd
