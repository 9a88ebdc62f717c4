import Verif.Model.ThermalIntegrals
import Verif.Lemmas.Compactify
import Verif.Lemmas.ChargeDensity
import Mathlib.MeasureTheory.Integral.ExpDecay

/-! # C46, C47: what the integrated thermal parts compute, without quadrature error

With the exact integrator (the Lebesgue integral) every `*_w_method` function returns the integral of the
corresponding public integrand over all momenta `q > 0`, for every choice of method. The finite-temperature
functions substitute `q = (1 - t) / t`; the zero-temperature ones stop at the Fermi momentum.

Generated by a script. -/

set_option linter.unusedSimpArgs false
set_option linter.unusedSectionVars false

namespace Qcd
open consts (Consts Integral)
open MeasureTheory Set
variable {T T1 T2 : Type} [Num T] [Num T1] [Num T2]

/-! ### C46 -/

/-- **C46** (convergence): the compactified integrand is integrable over `(0, 1)` exactly when the original one
is integrable over all momenta. -/
theorem C46_integrable_cplx (f : ℝ → ℂ) :
    IntervalIntegrable (fun t => f ((1 - t) / t) / ((t * t : ℝ) : ℂ)) volume 0 1 ↔ IntegrableOn f (Ioi 0) := by
  rw [← compactify_image, integrableOn_image_iff_integrableOn_abs_deriv_smul measurableSet_Ioo
    (fun t ht => (compactify_deriv ht.1.ne').hasDerivWithinAt) compactify_injOn,
    intervalIntegrable_iff_integrableOn_Ioo_of_le zero_le_one]
  refine integrableOn_congr_fun (fun t ht => ?_) measurableSet_Ioo
  have : 0 < 1 / (t * t) := by have := ht.1; positivity
  simp only [abs_neg, abs_of_pos this, Complex.real_smul]
  push_cast
  ring

/-- **C46** (convergence), real integrands. -/
theorem C46_integrable_real (f : ℝ → ℝ) :
    IntervalIntegrable (fun t => f ((1 - t) / t) / (t * t)) volume 0 1 ↔ IntegrableOn f (Ioi 0) := by
  rw [← compactify_image, integrableOn_image_iff_integrableOn_abs_deriv_smul measurableSet_Ioo
    (fun t ht => (compactify_deriv ht.1.ne').hasDerivWithinAt) compactify_injOn,
    intervalIntegrable_iff_integrableOn_Ioo_of_le zero_le_one]
  refine integrableOn_congr_fun (fun t ht => ?_) measurableSet_Ioo
  have : 0 < 1 / (t * t) := by have := ht.1; positivity
  simp only [abs_neg, abs_of_pos this, smul_eq_mul]
  ring

/-- **C46**: `ghost::thermal::self_energy_thermal_part_landau_w_method`. -/
theorem C46_ghost_thermal_self_energy (om : T) (p : ℝ) (m : ℝ) (beta : ℝ) (integral : Integral ℝ) :
    ghost.thermal.self_energy_thermal_part_landau_w_method .exact om p m beta integral =
      ∫ q in Ioi (0 : ℝ), ghost.thermal.self_energy_thermal_part_landau_i q om p m beta :=
  compactify_cplx (fun q => ghost.thermal.self_energy_thermal_part_landau_i q om p m beta)

/-- **C46**: `ghost::thermal::zero_matsubara::self_energy_thermal_part_landau_w_method`. -/
theorem C46_ghost_thermal_zero_matsubara_self_energy (p : ℝ) (m : ℝ) (beta : ℝ) (integral : Integral ℝ) :
    ghost.thermal.zero_matsubara.self_energy_thermal_part_landau_w_method .exact p m beta integral =
      ∫ q in Ioi (0 : ℝ), (ghost.thermal.zero_matsubara.self_energy_thermal_part_landau_i q p m beta).re :=
  compactify_real (fun q => (ghost.thermal.zero_matsubara.self_energy_thermal_part_landau_i q p m beta).re)

/-- **C46**: `ghost::thermal::zero_momentum::self_energy_thermal_part_landau_w_method`. -/
theorem C46_ghost_thermal_zero_momentum_self_energy (om : T) (m : ℝ) (beta : ℝ) (integral : Integral ℝ) :
    ghost.thermal.zero_momentum.self_energy_thermal_part_landau_w_method .exact om m beta integral =
      ∫ q in Ioi (0 : ℝ), ghost.thermal.zero_momentum.self_energy_thermal_part_landau_i q om m beta :=
  compactify_cplx (fun q => ghost.thermal.zero_momentum.self_energy_thermal_part_landau_i q om m beta)

/-- **C46**: `gluon::thermal::polarization_glue_l_thermal_part_landau_w_method`. -/
theorem C46_gluon_thermal_polarization_glue_l (om : T1) (p : T2) (m : ℝ) (beta : ℝ) (integral : Integral ℝ) :
    gluon.thermal.polarization_glue_l_thermal_part_landau_w_method .exact om p m beta integral =
      ∫ q in Ioi (0 : ℝ), gluon.thermal.polarization_glue_l_thermal_part_landau_i q om p m beta :=
  compactify_cplx (fun q => gluon.thermal.polarization_glue_l_thermal_part_landau_i q om p m beta)

/-- **C46**: `gluon::thermal::polarization_glue_t_thermal_part_landau_w_method`. -/
theorem C46_gluon_thermal_polarization_glue_t (om : T) (p : ℝ) (m : ℝ) (beta : ℝ) (integral : Integral ℝ) :
    gluon.thermal.polarization_glue_t_thermal_part_landau_w_method .exact om p m beta integral =
      ∫ q in Ioi (0 : ℝ), gluon.thermal.polarization_glue_t_thermal_part_landau_i q om p m beta :=
  compactify_cplx (fun q => gluon.thermal.polarization_glue_t_thermal_part_landau_i q om p m beta)

/-- **C46**: `gluon::thermal::polarization_quark_l_thermal_part_landau_w_method`. -/
theorem C46_gluon_thermal_polarization_quark_l (k : Consts ℝ) (om : T1) (p : T2) (mq : ℝ) (beta : ℝ) (mu : ℝ) (integral : Integral ℝ) :
    gluon.thermal.polarization_quark_l_thermal_part_landau_w_method .exact k om p mq beta mu integral =
      ∫ q in Ioi (0 : ℝ), gluon.thermal.polarization_quark_l_thermal_part_landau_i k q om p mq beta mu :=
  compactify_cplx (fun q => gluon.thermal.polarization_quark_l_thermal_part_landau_i k q om p mq beta mu)

/-- **C46**: `gluon::thermal::polarization_quark_t_thermal_part_landau_w_method`. -/
theorem C46_gluon_thermal_polarization_quark_t (k : Consts ℝ) (om : T) (p : ℝ) (mq : ℝ) (beta : ℝ) (mu : ℝ) (integral : Integral ℝ) :
    gluon.thermal.polarization_quark_t_thermal_part_landau_w_method .exact k om p mq beta mu integral =
      ∫ q in Ioi (0 : ℝ), gluon.thermal.polarization_quark_t_thermal_part_landau_i k q om p mq beta mu :=
  compactify_cplx (fun q => gluon.thermal.polarization_quark_t_thermal_part_landau_i k q om p mq beta mu)

/-- **C46**: `gluon::thermal::zero_matsubara::polarization_glue_l_thermal_part_landau_w_method`. -/
theorem C46_gluon_thermal_zero_matsubara_polarization_glue_l (k : Consts ℝ) (p : ℝ) (m : ℝ) (beta : ℝ) (integral : Integral ℝ) :
    gluon.thermal.zero_matsubara.polarization_glue_l_thermal_part_landau_w_method .exact k p m beta integral =
      ∫ q in Ioi (0 : ℝ), (gluon.thermal.polarization_glue_l_thermal_part_landau_i q k.matsubara_reg p m beta).re :=
  compactify_real (fun q => (gluon.thermal.polarization_glue_l_thermal_part_landau_i q k.matsubara_reg p m beta).re)

/-- **C46**: `gluon::thermal::zero_matsubara::polarization_glue_t_thermal_part_landau_w_method`. -/
theorem C46_gluon_thermal_zero_matsubara_polarization_glue_t (k : Consts ℝ) (p : ℝ) (m : ℝ) (beta : ℝ) (integral : Integral ℝ) :
    gluon.thermal.zero_matsubara.polarization_glue_t_thermal_part_landau_w_method .exact k p m beta integral =
      ∫ q in Ioi (0 : ℝ), (gluon.thermal.polarization_glue_t_thermal_part_landau_i q k.matsubara_reg p m beta).re :=
  compactify_real (fun q => (gluon.thermal.polarization_glue_t_thermal_part_landau_i q k.matsubara_reg p m beta).re)

/-- **C46**: `gluon::thermal::zero_matsubara::polarization_quark_l_thermal_part_landau_w_method`. -/
theorem C46_gluon_thermal_zero_matsubara_polarization_quark_l (k : Consts ℝ) (p : ℝ) (mq : ℝ) (beta : ℝ) (mu : ℝ) (integral : Integral ℝ) :
    gluon.thermal.zero_matsubara.polarization_quark_l_thermal_part_landau_w_method .exact k p mq beta mu integral =
      ∫ q in Ioi (0 : ℝ), (gluon.thermal.polarization_quark_l_thermal_part_landau_i k q k.matsubara_reg p mq beta mu).re :=
  compactify_real (fun q => (gluon.thermal.polarization_quark_l_thermal_part_landau_i k q k.matsubara_reg p mq beta mu).re)

/-- **C46**: `gluon::thermal::zero_matsubara::polarization_quark_t_thermal_part_landau_w_method`. -/
theorem C46_gluon_thermal_zero_matsubara_polarization_quark_t (k : Consts ℝ) (p : ℝ) (mq : ℝ) (beta : ℝ) (mu : ℝ) (integral : Integral ℝ) :
    gluon.thermal.zero_matsubara.polarization_quark_t_thermal_part_landau_w_method .exact k p mq beta mu integral =
      ∫ q in Ioi (0 : ℝ), (gluon.thermal.polarization_quark_t_thermal_part_landau_i k q k.matsubara_reg p mq beta mu).re :=
  compactify_real (fun q => (gluon.thermal.polarization_quark_t_thermal_part_landau_i k q k.matsubara_reg p mq beta mu).re)

/-- **C46**: `gluon::thermal::zero_momentum::polarization_glue_l_thermal_part_landau_w_method`. -/
theorem C46_gluon_thermal_zero_momentum_polarization_glue_l (om : T) (m : ℝ) (beta : ℝ) (integral : Integral ℝ) :
    gluon.thermal.zero_momentum.polarization_glue_l_thermal_part_landau_w_method .exact om m beta integral =
      ∫ q in Ioi (0 : ℝ), gluon.thermal.zero_momentum.polarization_glue_l_thermal_part_landau_i q om m beta :=
  compactify_cplx (fun q => gluon.thermal.zero_momentum.polarization_glue_l_thermal_part_landau_i q om m beta)

/-- **C46**: `gluon::thermal::zero_momentum::polarization_glue_t_thermal_part_landau_w_method`. -/
theorem C46_gluon_thermal_zero_momentum_polarization_glue_t (om : T) (m : ℝ) (beta : ℝ) (integral : Integral ℝ) :
    gluon.thermal.zero_momentum.polarization_glue_t_thermal_part_landau_w_method .exact om m beta integral =
      ∫ q in Ioi (0 : ℝ), gluon.thermal.zero_momentum.polarization_glue_t_thermal_part_landau_i q om m beta :=
  compactify_cplx (fun q => gluon.thermal.zero_momentum.polarization_glue_t_thermal_part_landau_i q om m beta)

/-- **C46**: `gluon::thermal::zero_momentum::polarization_quark_l_thermal_part_landau_w_method`. -/
theorem C46_gluon_thermal_zero_momentum_polarization_quark_l (k : Consts ℝ) (om : T) (mq : ℝ) (beta : ℝ) (mu : ℝ) (integral : Integral ℝ) :
    gluon.thermal.zero_momentum.polarization_quark_l_thermal_part_landau_w_method .exact k om mq beta mu integral =
      ∫ q in Ioi (0 : ℝ), toC (gluon.thermal.zero_momentum.polarization_quark_l_thermal_part_landau_i k q om mq beta mu) :=
  compactify_cplx (fun q => toC (gluon.thermal.zero_momentum.polarization_quark_l_thermal_part_landau_i k q om mq beta mu))

/-- **C46**: `gluon::thermal::zero_momentum::polarization_quark_t_thermal_part_landau_w_method`. -/
theorem C46_gluon_thermal_zero_momentum_polarization_quark_t (k : Consts ℝ) (om : T) (mq : ℝ) (beta : ℝ) (mu : ℝ) (integral : Integral ℝ) :
    gluon.thermal.zero_momentum.polarization_quark_t_thermal_part_landau_w_method .exact k om mq beta mu integral =
      ∫ q in Ioi (0 : ℝ), toC (gluon.thermal.zero_momentum.polarization_quark_t_thermal_part_landau_i k q om mq beta mu) :=
  compactify_cplx (fun q => toC (gluon.thermal.zero_momentum.polarization_quark_t_thermal_part_landau_i k q om mq beta mu))

/-! ### C47 -/

theorem abs_mu_lt_energy_of_lt (q mq mu : ℝ) (h : |mu| < |mq|) : |mu| < energy q mq := by
  rw [energy_real]
  refine lt_of_lt_of_le h (Real.le_sqrt_of_sq_le ?_)
  rw [sq_abs]
  nlinarith [mul_self_nonneg q]

theorem abs_mu_lt_energy_of_fermi (q mq mu : ℝ) (h : |mq| ≤ |mu|) (hq : fermi_momentum mq mu < q) :
    |mu| < energy q mq := by
  have h1 : mq ^ 2 ≤ mu ^ 2 := sq_le_sq.2 h
  have h0 : 0 ≤ fermi_momentum mq mu := Real.sqrt_nonneg _
  have h2 : fermi_momentum mq mu ^ 2 = mu ^ 2 - mq ^ 2 := by
    rw [fermi_momentum, Real.sq_sqrt (by nlinarith)]; ring
  rw [energy_real]
  apply Real.lt_sqrt_of_sq_lt
  rw [sq_abs]
  nlinarith

/-- Cutting at the Fermi momentum, and returning zero below threshold, loses nothing. -/
theorem fermi_cut {E : Type} [NormedAddCommGroup E] [NormedSpace ℝ E] (f : ℝ → E) (mq mu : ℝ)
    (hf : ∀ q, |mu| < energy q mq → f q = 0) [Decidable (|mu| < |mq|)] :
    (if |mu| < |mq| then (0 : E) else ∫ q in (0 : ℝ)..fermi_momentum mq mu, f q) = ∫ q in Ioi (0 : ℝ), f q := by
  split_ifs with h
  · exact (setIntegral_eq_zero_of_forall_eq_zero fun q _ => hf q (abs_mu_lt_energy_of_lt q mq mu h)).symm
  · have h0 : 0 ≤ fermi_momentum mq mu := Real.sqrt_nonneg _
    rw [intervalIntegral.integral_of_le h0]
    refine (setIntegral_eq_of_subset_of_forall_diff_eq_zero measurableSet_Ioi Ioc_subset_Ioi_self ?_).symm
    intro q hq
    refine hf q (abs_mu_lt_energy_of_fermi q mq mu (not_lt.1 h) ?_)
    by_contra h'
    exact hq.2 ⟨hq.1, not_lt.1 h'⟩

theorem double_zero_temp_outside (en mu : ℝ) (h : |mu| < en) : fermi_distribution_double_zero_temp en mu = 0 := by
  rw [C15_double_zero_temp_value en mu (lt_of_le_of_lt (abs_nonneg _) h), if_neg (not_le.2 h)]

/-- **C47**: `gluon::thermal::polarization_quark_l_thermal_part_zero_temp_landau_w_method`. -/
theorem C47_gluon_thermal_polarization_quark_l_zero_temp (k : Consts ℝ) (om : T1) (p : T2) (mq : ℝ) (mu : ℝ) (integral : Integral ℝ) :
    gluon.thermal.polarization_quark_l_thermal_part_zero_temp_landau_w_method .exact k om p mq mu integral =
      ∫ q in Ioi (0 : ℝ), gluon.thermal.polarization_quark_l_thermal_part_zero_temp_landau_i k q om p mq mu := by
  classical
  refine Eq.trans ?_ (fermi_cut (fun q => gluon.thermal.polarization_quark_l_thermal_part_zero_temp_landau_i k q om p mq mu) mq mu fun q hq => ?_)
  · rw [gluon.thermal.polarization_quark_l_thermal_part_zero_temp_landau_w_method]
    congr
  · simp only [gluon.thermal.polarization_quark_l_thermal_part_zero_temp_landau_i, double_zero_temp_outside _ _ hq, ofR_zero, mul_zero, zero_mul, neg_zero, zero_div, Complex.zero_re, map_zero]

/-- **C47**: `gluon::thermal::polarization_quark_t_thermal_part_zero_temp_landau_w_method`. -/
theorem C47_gluon_thermal_polarization_quark_t_zero_temp (k : Consts ℝ) (om : T) (p : ℝ) (mq : ℝ) (mu : ℝ) (integral : Integral ℝ) :
    gluon.thermal.polarization_quark_t_thermal_part_zero_temp_landau_w_method .exact k om p mq mu integral =
      ∫ q in Ioi (0 : ℝ), gluon.thermal.polarization_quark_t_thermal_part_zero_temp_landau_i k q om p mq mu := by
  classical
  refine Eq.trans ?_ (fermi_cut (fun q => gluon.thermal.polarization_quark_t_thermal_part_zero_temp_landau_i k q om p mq mu) mq mu fun q hq => ?_)
  · rw [gluon.thermal.polarization_quark_t_thermal_part_zero_temp_landau_w_method]
    congr
  · simp only [gluon.thermal.polarization_quark_t_thermal_part_zero_temp_landau_i, double_zero_temp_outside _ _ hq, ofR_zero, mul_zero, zero_mul, neg_zero, zero_div, Complex.zero_re, map_zero]

/-- **C47**: `gluon::thermal::zero_matsubara::polarization_quark_l_thermal_part_zero_temp_landau_w_method`. -/
theorem C47_gluon_thermal_zero_matsubara_polarization_quark_l_zero_temp (k : Consts ℝ) (p : ℝ) (mq : ℝ) (mu : ℝ) (integral : Integral ℝ) :
    gluon.thermal.zero_matsubara.polarization_quark_l_thermal_part_zero_temp_landau_w_method .exact k p mq mu integral =
      ∫ q in Ioi (0 : ℝ), (gluon.thermal.polarization_quark_l_thermal_part_zero_temp_landau_i k q k.matsubara_reg p mq mu).re := by
  classical
  refine Eq.trans ?_ (fermi_cut (fun q => (gluon.thermal.polarization_quark_l_thermal_part_zero_temp_landau_i k q k.matsubara_reg p mq mu).re) mq mu fun q hq => ?_)
  · rw [gluon.thermal.zero_matsubara.polarization_quark_l_thermal_part_zero_temp_landau_w_method]
    congr
  · simp only [gluon.thermal.polarization_quark_l_thermal_part_zero_temp_landau_i, double_zero_temp_outside _ _ hq, ofR_zero, mul_zero, zero_mul, neg_zero, zero_div, Complex.zero_re, map_zero]

/-- **C47**: `gluon::thermal::zero_matsubara::polarization_quark_t_thermal_part_zero_temp_landau_w_method`. -/
theorem C47_gluon_thermal_zero_matsubara_polarization_quark_t_zero_temp (k : Consts ℝ) (p : ℝ) (mq : ℝ) (mu : ℝ) (integral : Integral ℝ) :
    gluon.thermal.zero_matsubara.polarization_quark_t_thermal_part_zero_temp_landau_w_method .exact k p mq mu integral =
      ∫ q in Ioi (0 : ℝ), (gluon.thermal.polarization_quark_t_thermal_part_zero_temp_landau_i k q k.matsubara_reg p mq mu).re := by
  classical
  refine Eq.trans ?_ (fermi_cut (fun q => (gluon.thermal.polarization_quark_t_thermal_part_zero_temp_landau_i k q k.matsubara_reg p mq mu).re) mq mu fun q hq => ?_)
  · rw [gluon.thermal.zero_matsubara.polarization_quark_t_thermal_part_zero_temp_landau_w_method]
    congr
  · simp only [gluon.thermal.polarization_quark_t_thermal_part_zero_temp_landau_i, double_zero_temp_outside _ _ hq, ofR_zero, mul_zero, zero_mul, neg_zero, zero_div, Complex.zero_re, map_zero]

/-- **C47**: `gluon::thermal::zero_momentum::polarization_quark_l_thermal_part_zero_temp_landau_w_method`. -/
theorem C47_gluon_thermal_zero_momentum_polarization_quark_l_zero_temp (k : Consts ℝ) (om : T) (mq : ℝ) (mu : ℝ) (integral : Integral ℝ) :
    gluon.thermal.zero_momentum.polarization_quark_l_thermal_part_zero_temp_landau_w_method .exact k om mq mu integral =
      ∫ q in Ioi (0 : ℝ), toC (gluon.thermal.zero_momentum.polarization_quark_l_thermal_part_zero_temp_landau_i k q om mq mu) := by
  classical
  refine Eq.trans ?_ (fermi_cut (fun q => toC (gluon.thermal.zero_momentum.polarization_quark_l_thermal_part_zero_temp_landau_i k q om mq mu)) mq mu fun q hq => ?_)
  · rw [gluon.thermal.zero_momentum.polarization_quark_l_thermal_part_zero_temp_landau_w_method]
    congr
  · simp only [gluon.thermal.zero_momentum.polarization_quark_l_thermal_part_zero_temp_landau_i, double_zero_temp_outside _ _ hq, ofR_zero, mul_zero, zero_mul, neg_zero, zero_div, Complex.zero_re, map_zero]

/-- **C47**: `gluon::thermal::zero_momentum::polarization_quark_t_thermal_part_zero_temp_landau_w_method`. -/
theorem C47_gluon_thermal_zero_momentum_polarization_quark_t_zero_temp (k : Consts ℝ) (om : T) (mq : ℝ) (mu : ℝ) (integral : Integral ℝ) :
    gluon.thermal.zero_momentum.polarization_quark_t_thermal_part_zero_temp_landau_w_method .exact k om mq mu integral =
      ∫ q in Ioi (0 : ℝ), toC (gluon.thermal.zero_momentum.polarization_quark_t_thermal_part_zero_temp_landau_i k q om mq mu) := by
  classical
  refine Eq.trans ?_ (fermi_cut (fun q => toC (gluon.thermal.zero_momentum.polarization_quark_t_thermal_part_zero_temp_landau_i k q om mq mu)) mq mu fun q hq => ?_)
  · rw [gluon.thermal.zero_momentum.polarization_quark_t_thermal_part_zero_temp_landau_w_method]
    congr
  · simp only [gluon.thermal.zero_momentum.polarization_quark_t_thermal_part_zero_temp_landau_i, gluon.thermal.zero_momentum.polarization_quark_l_thermal_part_zero_temp_landau_i, double_zero_temp_outside _ _ hq, ofR_zero, mul_zero, zero_mul, neg_zero, zero_div, Complex.zero_re, map_zero]

/-- **C47** (below threshold): all six zero-temperature quark polarizations vanish when `|mu| < |mq|`, for every
integrator and method. -/
theorem C47_below_threshold (ig : Integrator) (k : Consts ℝ) (mq mu : ℝ) (h : |mu| < |mq|) (integral : Integral ℝ) :
    (∀ (om : T1) (p : T2), gluon.thermal.polarization_quark_l_thermal_part_zero_temp_landau_w_method ig k om p mq mu integral = 0) ∧
    (∀ (om : T) (p : ℝ), gluon.thermal.polarization_quark_t_thermal_part_zero_temp_landau_w_method ig k om p mq mu integral = 0) ∧
    (∀ (om : T), gluon.thermal.zero_momentum.polarization_quark_l_thermal_part_zero_temp_landau_w_method ig k om mq mu integral = 0) ∧
    (∀ (om : T), gluon.thermal.zero_momentum.polarization_quark_t_thermal_part_zero_temp_landau_w_method ig k om mq mu integral = 0) ∧
    (∀ (p : ℝ), gluon.thermal.zero_matsubara.polarization_quark_l_thermal_part_zero_temp_landau_w_method ig k p mq mu integral = 0) ∧
    (∀ (p : ℝ), gluon.thermal.zero_matsubara.polarization_quark_t_thermal_part_zero_temp_landau_w_method ig k p mq mu integral = 0) := by
  refine ⟨?_, ?_, ?_, ?_, ?_, ?_⟩ <;> intros <;> simp only [gluon.thermal.polarization_quark_l_thermal_part_zero_temp_landau_w_method, gluon.thermal.polarization_quark_t_thermal_part_zero_temp_landau_w_method, gluon.thermal.zero_momentum.polarization_quark_l_thermal_part_zero_temp_landau_w_method, gluon.thermal.zero_momentum.polarization_quark_t_thermal_part_zero_temp_landau_w_method, gluon.thermal.zero_matsubara.polarization_quark_l_thermal_part_zero_temp_landau_w_method, gluon.thermal.zero_matsubara.polarization_quark_t_thermal_part_zero_temp_landau_w_method, if_pos h]

/-! ### Non-vacuity -/

/-- An exponentially decaying integrand converges in the compactified form. -/
example : IntervalIntegrable (fun t : ℝ => Real.exp (-((1 - t) / t)) / (t * t)) volume 0 1 :=
  (C46_integrable_real (fun q => Real.exp (-q))).2 (by simpa using exp_neg_integrableOn_Ioi 0 one_pos)

example : |(1 / 2 : ℝ)| < |(-1 : ℝ)| ∧ ¬ |(2 : ℝ)| < |(-1 : ℝ)| := by
  norm_num [abs_of_pos, abs_of_neg]

end Qcd
