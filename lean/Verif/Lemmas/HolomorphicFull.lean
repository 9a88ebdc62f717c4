import Verif.Lemmas.HolomorphicParts
import Verif.Lemmas.DominationFull

/-! # The full thermal integrands are holomorphic in the frequency -/

set_option linter.unusedSimpArgs false

namespace Qcd
open MeasureTheory Filter Topology Set
open consts (Consts)

variable {c M p m b mq mu : ℝ}

theorem HolInt.cmul {S : Set ℝ} {F : ℂ → ℝ → ℂ} {h : ℂ → ℂ} (hh : Hol c M 0 fun om _ => h om) (hF : HolInt S c M F) :
    HolInt S c M fun om q => h om * F om q := by
  obtain ⟨_, dh, D, l, hD, hb'⟩ := hh
  obtain ⟨mf, df, g, hg, hb⟩ := hF
  refine ⟨fun o ho => (mf o ho).const_mul _, fun q hq => (dh 1 one_pos).mul (df q hq), _, hg.const_mul (D * 1 ^ 0 * (1 + 1) ^ l),
    fun o ho q hq => ?_⟩
  rw [norm_mul]
  exact mul_le_mul (hb' o ho 1 one_pos) (hb o ho q hq) (norm_nonneg _) (by positivity)

syntax "hdom" : tactic
macro_rules | `(tactic| hdom) => `(tactic| repeat' first
  | assumption
  | with_reducible apply HolInt.add
  | with_reducible apply HolInt.sub
  | with_reducible apply HolInt.neg
  | with_reducible apply HolInt.mul_const
  | (with_reducible refine HolInt.cmul (by hol) ?_))

theorem hol_ghost (hc : 0 < c) (hb : 0 < b) (hm : m ≠ 0) :
    HolInt (Ioi 0) c M fun om q => ghost.thermal.self_energy_thermal_part_landau_i q om p m b := by
  have h1 := hol_i_m_0_i (M := M) (p := p) hc hb hm
  have h2 := hol_i_0_0_i (M := M) (p := p) hc hb
  have h3 := HolInt.of_dom (c := c) (M := M) hb (dom_j_m_i hb hm)
  have h4 := HolInt.of_dom (c := c) (M := M) hb (dom_j_0_i hb)
  have h5 := hol_d_i_m_0_i (M := M) (p := p) hc hb hm
  have h6 := HolInt.of_dom (c := c) (M := M) hb (dom_d_j_m_i hb hm)
  have hom : Hol c M 0 _ := .om hc
  have hom2 : Hol c M 0 _ := .om2_inv hc p
  simp only [ghost.thermal.self_energy_thermal_part_landau_i, toC_real, toC_complex, ofR_real, ofR_complex, div_eq_mul_inv]
  push_cast
  hdom

theorem hol_glue_l (hc : 0 < c) (hb : 0 < b) (hm : m ≠ 0) :
    HolInt (Ioi 0) c M fun om q => gluon.thermal.polarization_glue_l_thermal_part_landau_i q om p m b := by
  have h1 := hol_i_m_0_i (M := M) (p := p) hc hb hm
  have h3 := HolInt.of_dom (c := c) (M := M) hb (dom_j_m_i hb hm)
  have h4 := HolInt.of_dom (c := c) (M := M) hb (dom_j_0_i hb)
  have h5 := hol_d_i_m_0_i (M := M) (p := p) hc hb hm
  have h6 := HolInt.of_dom (c := c) (M := M) hb (dom_d_j_m_i hb hm)
  have h7 := hol_i_m_m_i_same_mass (M := M) (p := p) hc hb hm
  have h8 := hol_i_0_0_l_i (M := M) (p := p) hc hb
  have h9 := hol_i_m_m_l_i_same_mass (M := M) (p := p) hc hb hm
  have h10 := hol_i_m_0_l_i (M := M) (p := p) hc hb hm
  have h11 := hol_d_i_m_m_l_i_same_mass (M := M) (p := p) hc hb hm
  have h12 := hol_d_i_m_0_l_i (M := M) (p := p) hc hb hm
  have h13 := hol_d_i_m_m_i_same_mass (M := M) (p := p) hc hb hm
  have h14 := HolInt.of_dom (c := c) (M := M) hb (dom_d2_j_m_i hb hm)
  have h15 := HolInt.of_dom (c := c) (M := M) hb (dom_j_m_t_i hb hm)
  have h16 := HolInt.of_dom (c := c) (M := M) hb (dom_j_m_l_i hb hm)
  have h17 := HolInt.of_dom (c := c) (M := M) hb (dom_j_0_t_i hb)
  have h18 := HolInt.of_dom (c := c) (M := M) hb (dom_j_0_l_i hb)
  have h19 := HolInt.of_dom (c := c) (M := M) hb (dom_d_j_m_t_i hb hm)
  have h20 := HolInt.of_dom (c := c) (M := M) hb (dom_d_j_m_l_i hb hm)
  have h21 := HolInt.of_dom (c := c) (M := M) hb (dom_d2_j_m_t_i hb hm)
  have h22 := HolInt.of_dom (c := c) (M := M) hb (dom_d2_j_m_l_i hb hm)
  have hom : Hol c M 0 _ := .om hc
  have hom2 : Hol c M 0 _ := .om2_inv hc p
  simp only [gluon.thermal.polarization_glue_l_thermal_part_landau_i, toC_real, toC_complex, ofR_real, ofR_complex, div_eq_mul_inv]
  push_cast
  hdom

theorem hol_glue_t (hc : 0 < c) (hb : 0 < b) (hm : m ≠ 0) :
    HolInt (Ioi 0) c M fun om q => gluon.thermal.polarization_glue_t_thermal_part_landau_i q om p m b := by
  have h1 := hol_i_m_0_i (M := M) (p := p) hc hb hm
  have h3 := HolInt.of_dom (c := c) (M := M) hb (dom_j_m_i hb hm)
  have h4 := HolInt.of_dom (c := c) (M := M) hb (dom_j_0_i hb)
  have h5 := hol_d_i_m_0_i (M := M) (p := p) hc hb hm
  have h6 := HolInt.of_dom (c := c) (M := M) hb (dom_d_j_m_i hb hm)
  have h7 := hol_i_m_m_i_same_mass (M := M) (p := p) hc hb hm
  have h8 := hol_i_0_0_t_i (M := M) (p := p) hc hb
  have h9 := hol_i_m_m_t_i_same_mass (M := M) (p := p) hc hb hm
  have h10 := hol_i_m_0_t_i (M := M) (p := p) hc hb hm
  have h11 := hol_d_i_m_m_t_i_same_mass (M := M) (p := p) hc hb hm
  have h12 := hol_d_i_m_0_t_i (M := M) (p := p) hc hb hm
  have h13 := hol_d_i_m_m_i_same_mass (M := M) (p := p) hc hb hm
  have h14 := HolInt.of_dom (c := c) (M := M) hb (dom_d2_j_m_i hb hm)
  have h15 := HolInt.of_dom (c := c) (M := M) hb (dom_j_m_t_i hb hm)
  have h17 := HolInt.of_dom (c := c) (M := M) hb (dom_j_0_t_i hb)
  have h19 := HolInt.of_dom (c := c) (M := M) hb (dom_d_j_m_t_i hb hm)
  have h21 := HolInt.of_dom (c := c) (M := M) hb (dom_d2_j_m_t_i hb hm)
  have hom : Hol c M 0 _ := .om hc
  simp only [gluon.thermal.polarization_glue_t_thermal_part_landau_i, toC_real, toC_complex, ofR_real, ofR_complex, div_eq_mul_inv]
  push_cast
  hdom

theorem hol_zm_ghost (hc : 0 < c) (hb : 0 < b) (hm : m ≠ 0) :
    HolInt (Ioi 0) c M fun om q => ghost.thermal.zero_momentum.self_energy_thermal_part_landau_i q om m b := by
  have h1 := hol_zm_i_m_0_i (M := M) hc hb hm
  have h2 := hol_zm_i_0_0_i (M := M) hc hb
  have h3 := HolInt.of_dom (c := c) (M := M) hb (dom_j_m_i hb hm)
  have h4 := HolInt.of_dom (c := c) (M := M) hb (dom_j_0_i hb)
  have h5 := hol_zm_d_i_m_0_i (M := M) hc hb hm
  have h6 := HolInt.of_dom (c := c) (M := M) hb (dom_d_j_m_i hb hm)
  have hom : Hol c M 0 _ := .om hc
  simp only [ghost.thermal.zero_momentum.self_energy_thermal_part_landau_i, toC_real, toC_complex, ofR_real, ofR_complex, div_eq_mul_inv]
  push_cast
  hdom

theorem hol_zm_glue_l (hc : 0 < c) (hb : 0 < b) (hm : m ≠ 0) :
    HolInt (Ioi 0) c M fun om q => gluon.thermal.zero_momentum.polarization_glue_l_thermal_part_landau_i q om m b := by
  have h1 := hol_zm_i_m_0_i (M := M) hc hb hm
  have h3 := HolInt.of_dom (c := c) (M := M) hb (dom_j_m_i hb hm)
  have h4 := HolInt.of_dom (c := c) (M := M) hb (dom_j_0_i hb)
  have h5 := hol_zm_d_i_m_0_i (M := M) hc hb hm
  have h6 := HolInt.of_dom (c := c) (M := M) hb (dom_d_j_m_i hb hm)
  have h7 := hol_zm_i_m_m_i_same_mass (M := M) hc hb hm
  have h8 := hol_zm_i_0_0_l_i (M := M) hc hb
  have h9 := hol_zm_i_m_m_l_i_same_mass (M := M) hc hb hm
  have h10 := hol_zm_i_m_0_l_i (M := M) hc hb hm
  have h11 := hol_zm_d_i_m_m_l_i_same_mass (M := M) hc hb hm
  have h12 := hol_zm_d_i_m_0_l_i (M := M) hc hb hm
  have h13 := hol_zm_d_i_m_m_i_same_mass (M := M) hc hb hm
  have h14 := HolInt.of_dom (c := c) (M := M) hb (dom_d2_j_m_i hb hm)
  have h15 := HolInt.of_dom (c := c) (M := M) hb (dom_j_m_t_i hb hm)
  have h17 := HolInt.of_dom (c := c) (M := M) hb (dom_j_0_t_i hb)
  have h19 := HolInt.of_dom (c := c) (M := M) hb (dom_d_j_m_t_i hb hm)
  have h21 := HolInt.of_dom (c := c) (M := M) hb (dom_d2_j_m_t_i hb hm)
  have hom : Hol c M 0 _ := .om hc
  simp only [gluon.thermal.zero_momentum.polarization_glue_l_thermal_part_landau_i, toC_real, toC_complex, ofR_real, ofR_complex, div_eq_mul_inv]
  push_cast
  hdom

/-! ### Quark loops -/

/-- The quark loop without its occupation number. -/
noncomputable def quarkL (k : Consts ℝ) (p mq : ℝ) (om : ℂ) (q : ℝ) : ℂ :=
  -(((p : ℂ) * p * k.nc * 2 * PI2)⁻¹ * (om * om + p * p)) *
        (q * (q * ((energy q mq : ℝ) : ℂ)⁻¹) - ((p : ℂ) * 8)⁻¹ * (q * (q : ℂ)⁻¹) * (q * ((energy q mq : ℝ) : ℂ)⁻¹) *
          ((om * om + p * p - ((energy q mq : ℝ) : ℂ) * ((energy q mq : ℝ) : ℂ) * 4 + (om * 4 * Complex.I) * ((energy q mq : ℝ) : ℂ)) *
              TL q om p ((energy q mq : ℝ) : ℂ) ((0 : ℝ) : ℂ)
            + (om * om + p * p - ((energy q mq : ℝ) : ℂ) * ((energy q mq : ℝ) : ℂ) * 4 - (om * 4 * Complex.I) * ((energy q mq : ℝ) : ℂ)) *
              TL q (-om) p ((energy q mq : ℝ) : ℂ) ((0 : ℝ) : ℂ)))

noncomputable def quarkT (k : Consts ℝ) (p mq : ℝ) (om : ℂ) (q : ℝ) : ℂ :=
  -((p : ℂ) * p * k.nc * 4 * PI2)⁻¹ *
        ((-(om * om) + p * p : ℂ) * (q * (q * ((energy q mq : ℝ) : ℂ)⁻¹)) - ((p : ℂ) * 8)⁻¹ * (q * (q : ℂ)⁻¹) * (q * ((energy q mq : ℝ) : ℂ)⁻¹) *
          ((((-(om * om) + p * p) * (om * om + p * p) + 4 * (q * q) * (p * p) + om * om * 4 * ((energy q mq : ℝ) : ℂ) * ((energy q mq : ℝ) : ℂ))
              - (om * (om * om + p * p) * 4 * Complex.I) * ((energy q mq : ℝ) : ℂ)) *
              TL q om p ((energy q mq : ℝ) : ℂ) ((0 : ℝ) : ℂ)
            + (((-(om * om) + p * p) * (om * om + p * p) + 4 * (q * q) * (p * p) + om * om * 4 * ((energy q mq : ℝ) : ℂ) * ((energy q mq : ℝ) : ℂ))
              + (om * (om * om + p * p) * 4 * Complex.I) * ((energy q mq : ℝ) : ℂ)) *
              TL q (-om) p ((energy q mq : ℝ) : ℂ) ((0 : ℝ) : ℂ)))

noncomputable def quarkZ (k : Consts ℝ) (mq : ℝ) (om : ℂ) (q : ℝ) : ℂ :=
  (3 * PI2 * k.nc : ℂ)⁻¹ * 2 * (q * (q * ((energy q mq : ℝ) : ℂ)⁻¹)) *
        (3 * -(((energy q mq : ℝ) : ℂ) * ((energy q mq : ℝ) : ℂ)) + q * q) * ((om * om + 4 * (((energy q mq : ℝ) : ℂ) * ((energy q mq : ℝ) : ℂ)))⁻¹)

theorem Hol.quarkL (hc : 0 < c) (k : Consts ℝ) (p mq : ℝ) : Hol c M 0 (quarkL k p mq) := by
  obtain ⟨_, _, _, _, _, _, _, _, _, _, _, _, _⟩ := LegH.same (M := M) hc p mq
  have hi : Hol c M 0 _ := .of_grow (Grow.id_div_energy mq)
  have hom : Hol c M 0 _ := .om hc
  unfold Qcd.quarkL
  hol

theorem Hol.quarkT (hc : 0 < c) (k : Consts ℝ) (p mq : ℝ) : Hol c M 0 (quarkT k p mq) := by
  obtain ⟨_, _, _, _, _, _, _, _, _, _, _, _, _⟩ := LegH.same (M := M) hc p mq
  have hi : Hol c M 0 _ := .of_grow (Grow.id_div_energy mq)
  have hom : Hol c M 0 _ := .om hc
  unfold Qcd.quarkT
  hol

theorem Hol.quarkZ (hc : 0 < c) (k : Consts ℝ) (mq : ℝ) : Hol c M 0 (quarkZ k mq) := by
  have he : Hol c M 0 fun _ q => ((energy q mq : ℝ) : ℂ) := .of_grow (Grow.energy mq)
  have hi : Hol c M 0 _ := .of_grow (Grow.id_div_energy mq)
  -- the denominator is the product of the two inverse energies at zero momentum
  obtain ⟨hp, -⟩ := LegZ.of (LegH.same (M := M) hc 0 mq)
  have hom1 : Hol c M 0 fun om _ => om⁻¹ := .om_inv hc
  have hom : Hol c M 0 fun om _ => om := .om hc
  obtain ⟨-, hp'⟩ := LegZ.of (LegH.same (M := M) hc 0 mq)
  have hd : Hol c M 0 fun om q => (om * om + 4 * (((energy q mq : ℝ) : ℂ) * ((energy q mq : ℝ) : ℂ)))⁻¹ := by
    refine ((((hom.mul00 hom).mul00 hp).mul00 hp')).congr (fun om _ => ?_) fun om ho q hq => ?_
    · have := energyC_meas mq
      fun_prop
    · have h1 : om ≠ 0 := fun h => Freq.re_ne hc.le ho (by simp [h])
      simp only [Qcd.R0]
      obtain ⟨x, hx⟩ : ∃ x : ℂ, x = ((energy q mq : ℝ) : ℂ) := ⟨_, rfl⟩
      rw [← hx]
      have e1 : om * om + om * (x * 2 * Complex.I) + ((((0 : ℝ) : ℂ)) * ((0 : ℝ) : ℂ) + ((0 : ℝ) : ℂ)) = om * (om + 2 * x * Complex.I) := by push_cast; ring
      have e2 : -om * -om + -om * (x * 2 * Complex.I) + ((((0 : ℝ) : ℂ)) * ((0 : ℝ) : ℂ) + ((0 : ℝ) : ℂ)) = om * (om - 2 * x * Complex.I) := by push_cast; ring
      have e3 : om * om + 4 * (x * x) = (om + 2 * x * Complex.I) * (om - 2 * x * Complex.I) := by
        linear_combination (4 * x * x) * Complex.I_sq
      rw [e3]
      first
        | rw [e1, e2]
          simp only [mul_inv]
          field_simp
        | (simp only [mul_inv]; field_simp)
  unfold Qcd.quarkZ
  hol

theorem hol_quark_l (hc : 0 < c) (hb : 0 < b) (k : Consts ℝ) :
    HolInt (Ioi 0) c M fun om q => gluon.thermal.polarization_quark_l_thermal_part_landau_i k q om p mq b mu := by
  have e : ∀ (om : ℂ) (q : ℝ), gluon.thermal.polarization_quark_l_thermal_part_landau_i k q om p mq b mu =
      ((fermi_distribution_double (energy q mq) b mu : ℝ) : ℂ) * quarkL k p mq om q := by
    intro om q
    simp only [quarkL, gluon.thermal.polarization_quark_l_thermal_part_landau_i, tlog_same_mass_eq, toC_real, toC_complex, ofR_real, ofR_complex]
    push_cast
    ring
  simp only [e]
  exact HolInt.weight hb le_rfl (Dom.fermi hb mq mu) (.quarkL hc k p mq)

theorem hol_quark_t (hc : 0 < c) (hb : 0 < b) (k : Consts ℝ) :
    HolInt (Ioi 0) c M fun om q => gluon.thermal.polarization_quark_t_thermal_part_landau_i k q om p mq b mu := by
  have e : ∀ (om : ℂ) (q : ℝ), gluon.thermal.polarization_quark_t_thermal_part_landau_i k q om p mq b mu =
      ((fermi_distribution_double (energy q mq) b mu : ℝ) : ℂ) * quarkT k p mq om q := by
    intro om q
    simp only [quarkT, gluon.thermal.polarization_quark_t_thermal_part_landau_i, tlog_same_mass_eq, toC_real, toC_complex, ofR_real, ofR_complex]
    push_cast
    ring
  simp only [e]
  exact HolInt.weight hb le_rfl (Dom.fermi hb mq mu) (.quarkT hc k p mq)

theorem hol_zm_quark (hc : 0 < c) (hb : 0 < b) (k : Consts ℝ) :
    HolInt (Ioi 0) c M fun om q => gluon.thermal.zero_momentum.polarization_quark_l_thermal_part_landau_i k q om mq b mu := by
  have e : ∀ (om : ℂ) (q : ℝ), gluon.thermal.zero_momentum.polarization_quark_l_thermal_part_landau_i k q om mq b mu =
      ((fermi_distribution_double (energy q mq) b mu : ℝ) : ℂ) * quarkZ k mq om q := by
    intro om q
    simp only [quarkZ, gluon.thermal.zero_momentum.polarization_quark_l_thermal_part_landau_i, toC_real, toC_complex, ofR_real, ofR_complex]
    push_cast
    simp only [mul_inv]
    ring
  simp only [e]
  exact HolInt.weight hb le_rfl (Dom.fermi hb mq mu) (.quarkZ hc k mq)

/-! ### Zero temperature -/

theorem Hol.fermi0 (mq mu : ℝ) : Hol c M 0 fun _ q => ((fermi_distribution_double_zero_temp (energy q mq) mu : ℝ) : ℂ) := by
  refine .of_grow (.ofBound ?_ 2 fun q _ => ?_)
  · have hE := energy_meas mq
    have h1 : ∀ x : ℝ, Measurable fun q => (open Classical in if energy q mq > x then (0 : ℝ) else 1) := fun x =>
      Measurable.ite (measurableSet_lt measurable_const hE) measurable_const measurable_const
    exact Complex.measurable_ofReal.comp ((h1 mu).add (h1 (-mu)))
  · have h1 : ∀ x : ℝ, |(open Classical in if energy q mq > x then (0 : ℝ) else 1)| ≤ 1 := fun x => by split_ifs <;> simp
    rw [Complex.norm_real, Real.norm_eq_abs]
    exact (abs_add_le _ _).trans ((add_le_add (h1 mu) (h1 (-mu))).trans (by norm_num))

theorem hol_quark_l_zero_temp (hc : 0 < c) (k : Consts ℝ) (x : ℝ) :
    HolInt (Ioc 0 x) c M fun om q => gluon.thermal.polarization_quark_l_thermal_part_zero_temp_landau_i k q om p mq mu := by
  have e : ∀ (om : ℂ) (q : ℝ), gluon.thermal.polarization_quark_l_thermal_part_zero_temp_landau_i k q om p mq mu =
      ((fermi_distribution_double_zero_temp (energy q mq) mu : ℝ) : ℂ) * quarkL k p mq om q := by
    intro om q
    simp only [quarkL, gluon.thermal.polarization_quark_l_thermal_part_zero_temp_landau_i, tlog_same_mass_eq, toC_real, toC_complex, ofR_real, ofR_complex]
    push_cast
    ring
  simp only [e]
  exact .bounded ((Hol.fermi0 mq mu).mul00 (.quarkL hc k p mq))

theorem hol_quark_t_zero_temp (hc : 0 < c) (k : Consts ℝ) (x : ℝ) :
    HolInt (Ioc 0 x) c M fun om q => gluon.thermal.polarization_quark_t_thermal_part_zero_temp_landau_i k q om p mq mu := by
  have e : ∀ (om : ℂ) (q : ℝ), gluon.thermal.polarization_quark_t_thermal_part_zero_temp_landau_i k q om p mq mu =
      ((fermi_distribution_double_zero_temp (energy q mq) mu : ℝ) : ℂ) * quarkT k p mq om q := by
    intro om q
    simp only [quarkT, gluon.thermal.polarization_quark_t_thermal_part_zero_temp_landau_i, tlog_same_mass_eq, toC_real, toC_complex, ofR_real, ofR_complex]
    push_cast
    ring
  simp only [e]
  exact .bounded ((Hol.fermi0 mq mu).mul00 (.quarkT hc k p mq))

theorem hol_zm_quark_zero_temp (hc : 0 < c) (k : Consts ℝ) (x : ℝ) :
    HolInt (Ioc 0 x) c M fun om q => gluon.thermal.zero_momentum.polarization_quark_l_thermal_part_zero_temp_landau_i k q om mq mu := by
  have e : ∀ (om : ℂ) (q : ℝ), gluon.thermal.zero_momentum.polarization_quark_l_thermal_part_zero_temp_landau_i k q om mq mu =
      ((fermi_distribution_double_zero_temp (energy q mq) mu : ℝ) : ℂ) * quarkZ k mq om q := by
    intro om q
    simp only [quarkZ, gluon.thermal.zero_momentum.polarization_quark_l_thermal_part_zero_temp_landau_i, toC_real, toC_complex, ofR_real, ofR_complex]
    push_cast
    simp only [mul_inv]
    ring
  simp only [e]
  exact .bounded ((Hol.fermi0 mq mu).mul00 (.quarkZ hc k mq))

end Qcd
