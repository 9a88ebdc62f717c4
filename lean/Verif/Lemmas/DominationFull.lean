import Verif.Lemmas.DominationParts
import Verif.Lemmas.ChargeDensity

/-! # Uniform bounds on the full thermal integrands

At a real frequency `om ≠ 0`, real momentum `p` and gluon mass `m ≠ 0` the integrands of the ghost self-energy and of the gluon
polarization satisfy `Dom`: they are measurable and, at all temperatures below `1 / b0` together, bounded by one integrable function. -/

set_option linter.unusedSimpArgs false

namespace Qcd
open MeasureTheory Filter Topology Set
open consts (Consts)

variable {b0 om p m mq mu : ℝ}

syntax "dom" : tactic
macro_rules | `(tactic| dom) => `(tactic| repeat' first
  | assumption
  | with_reducible apply Dom.add
  | with_reducible apply Dom.sub
  | with_reducible apply Dom.neg
  | with_reducible apply Dom.const_mul
  | with_reducible apply Dom.mul_const
  | with_reducible apply Dom.div_const)

theorem dom_ghost (h0 : 0 < b0) (ho : om ≠ 0) (hm : m ≠ 0) :
    Dom b0 fun b q => ghost.thermal.self_energy_thermal_part_landau_i q om p m b := by
  have h1 := dom_i_m_0_i (p := p) h0 ho hm
  have h2 := dom_i_0_0_i (p := p) h0 ho
  have h3 := dom_j_m_i h0 hm
  have h4 := dom_j_0_i h0
  have h5 := dom_d_i_m_0_i (p := p) h0 ho hm
  have h6 := dom_d_j_m_i h0 hm
  simp only [ghost.thermal.self_energy_thermal_part_landau_i, toC_real, toC_complex, ofR_real, ofR_complex]
  push_cast
  dom

theorem dom_glue_l (h0 : 0 < b0) (ho : om ≠ 0) (hm : m ≠ 0) :
    Dom b0 fun b q => gluon.thermal.polarization_glue_l_thermal_part_landau_i q om p m b := by
  have h1 := dom_i_m_0_i (p := p) h0 ho hm
  have h3 := dom_j_m_i h0 hm
  have h4 := dom_j_0_i h0
  have h5 := dom_d_i_m_0_i (p := p) h0 ho hm
  have h6 := dom_d_j_m_i h0 hm
  have h7 := dom_i_m_m_i_same_mass (p := p) h0 ho hm
  have h8 := dom_i_0_0_l_i (p := p) h0 ho
  have h9 := dom_i_m_m_l_i_same_mass (p := p) h0 ho hm
  have h10 := dom_i_m_0_l_i (p := p) h0 ho hm
  have h11 := dom_d_i_m_m_l_i_same_mass (p := p) h0 ho hm
  have h12 := dom_d_i_m_0_l_i (p := p) h0 ho hm
  have h13 := dom_d_i_m_m_i_same_mass (p := p) h0 ho hm
  have h14 := dom_d2_j_m_i h0 hm
  have h15 := dom_j_m_t_i h0 hm
  have h16 := dom_j_m_l_i h0 hm
  have h17 := dom_j_0_t_i h0
  have h18 := dom_j_0_l_i h0
  have h19 := dom_d_j_m_t_i h0 hm
  have h20 := dom_d_j_m_l_i h0 hm
  have h21 := dom_d2_j_m_t_i h0 hm
  have h22 := dom_d2_j_m_l_i h0 hm
  simp only [gluon.thermal.polarization_glue_l_thermal_part_landau_i, toC_real, toC_complex, ofR_real, ofR_complex]
  push_cast
  dom

theorem dom_glue_t (h0 : 0 < b0) (ho : om ≠ 0) (hm : m ≠ 0) :
    Dom b0 fun b q => gluon.thermal.polarization_glue_t_thermal_part_landau_i q om p m b := by
  have h1 := dom_i_m_0_i (p := p) h0 ho hm
  have h3 := dom_j_m_i h0 hm
  have h4 := dom_j_0_i h0
  have h5 := dom_d_i_m_0_i (p := p) h0 ho hm
  have h6 := dom_d_j_m_i h0 hm
  have h7 := dom_i_m_m_i_same_mass (p := p) h0 ho hm
  have h8 := dom_i_0_0_t_i (p := p) h0 ho
  have h9 := dom_i_m_m_t_i_same_mass (p := p) h0 ho hm
  have h10 := dom_i_m_0_t_i (p := p) h0 ho hm
  have h11 := dom_d_i_m_m_t_i_same_mass (p := p) h0 ho hm
  have h12 := dom_d_i_m_0_t_i (p := p) h0 ho hm
  have h13 := dom_d_i_m_m_i_same_mass (p := p) h0 ho hm
  have h14 := dom_d2_j_m_i h0 hm
  have h15 := dom_j_m_t_i h0 hm
  have h17 := dom_j_0_t_i h0
  have h19 := dom_d_j_m_t_i h0 hm
  have h21 := dom_d2_j_m_t_i h0 hm
  simp only [gluon.thermal.polarization_glue_t_thermal_part_landau_i, toC_real, toC_complex, ofR_real, ofR_complex]
  push_cast
  dom

theorem dom_zm_ghost (h0 : 0 < b0) (ho : om ≠ 0) (hm : m ≠ 0) :
    Dom b0 fun b q => ghost.thermal.zero_momentum.self_energy_thermal_part_landau_i q om m b := by
  have h1 := dom_zm_i_m_0_i h0 ho hm
  have h2 := dom_zm_i_0_0_i h0 ho
  have h3 := dom_j_m_i h0 hm
  have h4 := dom_j_0_i h0
  have h5 := dom_zm_d_i_m_0_i h0 ho hm
  have h6 := dom_d_j_m_i h0 hm
  simp only [ghost.thermal.zero_momentum.self_energy_thermal_part_landau_i, toC_real, toC_complex, ofR_real, ofR_complex]
  push_cast
  dom

theorem dom_zm_glue_l (h0 : 0 < b0) (ho : om ≠ 0) (hm : m ≠ 0) :
    Dom b0 fun b q => gluon.thermal.zero_momentum.polarization_glue_l_thermal_part_landau_i q om m b := by
  have h1 := dom_zm_i_m_0_i h0 ho hm
  have h3 := dom_j_m_i h0 hm
  have h4 := dom_j_0_i h0
  have h5 := dom_zm_d_i_m_0_i h0 ho hm
  have h6 := dom_d_j_m_i h0 hm
  have h7 := dom_zm_i_m_m_i_same_mass h0 ho hm
  have h8 := dom_zm_i_0_0_l_i h0 ho
  have h9 := dom_zm_i_m_m_l_i_same_mass h0 ho hm
  have h10 := dom_zm_i_m_0_l_i h0 ho hm
  have h11 := dom_zm_d_i_m_m_l_i_same_mass h0 ho hm
  have h12 := dom_zm_d_i_m_0_l_i h0 ho hm
  have h13 := dom_zm_d_i_m_m_i_same_mass h0 ho hm
  have h14 := dom_d2_j_m_i h0 hm
  have h15 := dom_j_m_t_i h0 hm
  have h17 := dom_j_0_t_i h0
  have h19 := dom_d_j_m_t_i h0 hm
  have h21 := dom_d2_j_m_t_i h0 hm
  simp only [gluon.thermal.zero_momentum.polarization_glue_l_thermal_part_landau_i, toC_real, toC_complex, ofR_real, ofR_complex]
  push_cast
  dom

/-! ### Quark loops -/

theorem fermi_double_real (en b mu : ℝ) :
    fermi_distribution_double en b mu = (Real.exp ((en - mu) * b) + 1)⁻¹ + (Real.exp ((en + mu) * b) + 1)⁻¹ := by
  simp [fermi_distribution_double, statistic_distribution_exponential]

theorem fermi_le_of_le {x b : ℝ} (h0 : 0 < b0) (hb : b0 ≤ b) : (Real.exp (x * b) + 1)⁻¹ ≤ Real.exp (-(b0 * x)) := by
  have h1 := Real.exp_pos (x * b)
  rcases le_or_gt 0 x with hx | hx
  · rw [Real.exp_neg]
    refine inv_anti₀ (Real.exp_pos _) ?_
    have : Real.exp (b0 * x) ≤ Real.exp (x * b) := Real.exp_le_exp.2 (by nlinarith)
    linarith
  · refine (inv_le_one_of_one_le₀ (by linarith)).trans (Real.one_le_exp (by nlinarith))

theorem Dom.fermi (h0 : 0 < b0) (mq mu : ℝ) : Dom b0 fun b q => ((fermi_distribution_double (energy q mq) b mu : ℝ) : ℂ) := by
  refine ⟨fun b => ?_, 2 * Real.exp (b0 * |mu|), 0, by positivity, fun b hb q hq => ?_⟩
  · have := energy_meas mq
    simp only [fermi_double_real]
    fun_prop
  · have he := le_energy_dom (m := mq) hq.le
    rw [fermi_double_real, Complex.norm_real, Real.norm_of_nonneg (by positivity), pow_zero, mul_one]
    have h1 := fermi_le_of_le (x := energy q mq - mu) h0 hb
    have h2 := fermi_le_of_le (x := energy q mq + mu) h0 hb
    have h3 : ∀ y : ℝ, |y| ≤ |mu| → Real.exp (-(b0 * (energy q mq - y))) ≤ Real.exp (b0 * |mu|) * Real.exp (-(b0 / 4 * q)) := fun y hy => by
      rw [← Real.exp_add]
      refine Real.exp_le_exp.2 ?_
      have := (le_abs_self y).trans hy
      nlinarith [mul_le_mul_of_nonneg_left this h0.le, mul_le_mul_of_nonneg_left he h0.le, mul_pos h0 hq]
    have h4 := h3 mu le_rfl
    have h5 := h3 (-mu) (by rw [abs_neg])
    rw [sub_neg_eq_add] at h5
    linarith

theorem LegG.quark {om : ℝ} (ho : om ≠ 0) (p mq : ℝ) : LegG om p (fun q => energy q mq) 0 :=
  .of (.of_le ho p (fun _ hq => le_energy_dom hq.le) (pos_sum ho p le_rfl)) (energy_meas mq) (.energy mq)

theorem dom_quark_l (h0 : 0 < b0) (ho : om ≠ 0) (k : Consts ℝ) :
    Dom b0 fun b q => gluon.thermal.polarization_quark_l_thermal_part_landau_i k q om p mq b mu := by
  have e : ∀ b q, gluon.thermal.polarization_quark_l_thermal_part_landau_i k q om p mq b mu =
      ((fermi_distribution_double (energy q mq) b mu : ℝ) : ℂ) * (-(((p : ℂ) * p * k.nc * 2 * PI2)⁻¹ * (om * om + p * p)) *
        (q * (q * ((energy q mq : ℝ) : ℂ)⁻¹) - ((p : ℂ) * 8)⁻¹ * (q * (q : ℂ)⁻¹) * (q * ((energy q mq : ℝ) : ℂ)⁻¹) *
          ((om * om + p * p - ((energy q mq : ℝ) : ℂ) * ((energy q mq : ℝ) : ℂ) * 4 + (om * 4 * Complex.I) * ((energy q mq : ℝ) : ℂ)) *
              TL q (om : ℂ) p ((energy q mq : ℝ) : ℂ) ((0 : ℝ) : ℂ)
            + (om * om + p * p - ((energy q mq : ℝ) : ℂ) * ((energy q mq : ℝ) : ℂ) * 4 - (om * 4 * Complex.I) * ((energy q mq : ℝ) : ℂ)) *
              TL q ((-om : ℝ) : ℂ) p ((energy q mq : ℝ) : ℂ) ((0 : ℝ) : ℂ)))) := by
    intro b q
    simp only [gluon.thermal.polarization_quark_l_thermal_part_landau_i, tlog_same_mass_eq, toC_real, toC_complex, ofR_real, ofR_complex]
    push_cast
    ring
  simp only [e]
  obtain ⟨_, _, _, _, _, _, _⟩ := LegG.quark ho p mq
  obtain ⟨_, _, _, _, _, _, _⟩ := LegG.quark (neg_ne_zero.2 ho) p mq
  have he := Grow.energy mq
  have hi := Grow.id_div_energy mq
  exact (Dom.fermi h0 mq mu).mul (by grow)

theorem dom_quark_t (h0 : 0 < b0) (ho : om ≠ 0) (k : Consts ℝ) :
    Dom b0 fun b q => gluon.thermal.polarization_quark_t_thermal_part_landau_i k q om p mq b mu := by
  have e : ∀ b q, gluon.thermal.polarization_quark_t_thermal_part_landau_i k q om p mq b mu =
      ((fermi_distribution_double (energy q mq) b mu : ℝ) : ℂ) * (-((p : ℂ) * p * k.nc * 4 * PI2)⁻¹ *
        ((-(om * om) + p * p : ℂ) * (q * (q * ((energy q mq : ℝ) : ℂ)⁻¹)) - ((p : ℂ) * 8)⁻¹ * (q * (q : ℂ)⁻¹) * (q * ((energy q mq : ℝ) : ℂ)⁻¹) *
          ((((-(om * om) + p * p) * (om * om + p * p) + 4 * (q * q) * (p * p) + om * om * 4 * ((energy q mq : ℝ) : ℂ) * ((energy q mq : ℝ) : ℂ))
              - (om * (om * om + p * p) * 4 * Complex.I) * ((energy q mq : ℝ) : ℂ)) *
              TL q (om : ℂ) p ((energy q mq : ℝ) : ℂ) ((0 : ℝ) : ℂ)
            + (((-(om * om) + p * p) * (om * om + p * p) + 4 * (q * q) * (p * p) + om * om * 4 * ((energy q mq : ℝ) : ℂ) * ((energy q mq : ℝ) : ℂ))
              + (om * (om * om + p * p) * 4 * Complex.I) * ((energy q mq : ℝ) : ℂ)) *
              TL q ((-om : ℝ) : ℂ) p ((energy q mq : ℝ) : ℂ) ((0 : ℝ) : ℂ)))) := by
    intro b q
    simp only [gluon.thermal.polarization_quark_t_thermal_part_landau_i, tlog_same_mass_eq, toC_real, toC_complex, ofR_real, ofR_complex]
    push_cast
    ring
  simp only [e]
  obtain ⟨_, _, _, _, _, _, _⟩ := LegG.quark ho p mq
  obtain ⟨_, _, _, _, _, _, _⟩ := LegG.quark (neg_ne_zero.2 ho) p mq
  have he := Grow.energy mq
  have hi := Grow.id_div_energy mq
  exact (Dom.fermi h0 mq mu).mul (by grow)

theorem dom_zm_quark (h0 : 0 < b0) (ho : om ≠ 0) (k : Consts ℝ) :
    Dom b0 fun b q => toC (gluon.thermal.zero_momentum.polarization_quark_l_thermal_part_landau_i k q om mq b mu) := by
  have e : ∀ b q, toC (gluon.thermal.zero_momentum.polarization_quark_l_thermal_part_landau_i k q om mq b mu) =
      ((fermi_distribution_double (energy q mq) b mu : ℝ) : ℂ) * ((3 * PI2 * k.nc : ℂ)⁻¹ * 2 * (q * (q * ((energy q mq : ℝ) : ℂ)⁻¹)) *
        (3 * -(((energy q mq : ℝ) : ℂ) * ((energy q mq : ℝ) : ℂ)) + q * q) * ((om * om + 4 * (((energy q mq : ℝ) : ℂ) * ((energy q mq : ℝ) : ℂ)))⁻¹)) := by
    intro b q
    simp only [gluon.thermal.zero_momentum.polarization_quark_l_thermal_part_landau_i, toC_real, toC_complex, ofR_real, ofR_complex]
    push_cast
    simp only [mul_inv]
    ring
  simp only [e]
  have he := Grow.energy mq
  have hi := Grow.id_div_energy mq
  have hd : Grow 0 fun q => ((om * om + 4 * (((energy q mq : ℝ) : ℂ) * ((energy q mq : ℝ) : ℂ)))⁻¹ : ℂ) := by
    have := energyC_meas mq
    refine .ofBound (by fun_prop) (om * om)⁻¹ fun q hq => ?_
    have h1 : 0 < om * om := mul_self_pos.2 ho
    have h2 := mul_self_nonneg (energy q mq)
    rw [norm_inv, show (om * om + 4 * (((energy q mq : ℝ) : ℂ) * ((energy q mq : ℝ) : ℂ)) : ℂ) = ((om * om + 4 * (energy q mq * energy q mq) : ℝ) : ℂ) by push_cast; ring,
      Complex.norm_real, Real.norm_of_nonneg (by positivity)]
    exact inv_anti₀ h1 (by linarith)
  exact (Dom.fermi h0 mq mu).mul (by grow)

end Qcd
