import Verif.Lemmas.Domination
import Verif.Model.ThermalParts

/-! # Uniform bounds on the one-loop thermal integrands

At a real frequency `om ≠ 0`, real momentum `p` and gluon mass `m ≠ 0` all integrands from which the ghost self-energy and the
gluon polarization are built satisfy `Dom`. -/

set_option linter.unusedSimpArgs false

namespace Qcd
open MeasureTheory Filter Topology Set

/-- All the building blocks of a leg with energy `e` and mass difference `d`. -/
structure LegG (om p : ℝ) (e : ℝ → ℝ) (d : ℝ) : Prop where
  e0 : Grow 0 fun q => ((e q : ℝ) : ℂ)
  tl : Grow 1 fun q => TL q om p (e q) d
  r0 : Grow 0 fun q => R0 om p (e q) d
  pf : Grow 0 fun q => PF om p (e q) d
  ip : Grow 0 fun q => ((p : ℂ) * q * 2 + R0 om p (e q) d)⁻¹
  im : Grow 0 fun q => (-((p : ℂ) * q * 2) + R0 om p (e q) d)⁻¹
  id : Grow 1 fun q => ((p : ℂ) * q * 2 + R0 om p (e q) d)⁻¹ - (-((p : ℂ) * q * 2) + R0 om p (e q) d)⁻¹

theorem LegG.of {om p : ℝ} {e : ℝ → ℝ} {d : ℝ} (h : Away om p e d) (hm : Measurable e) (he : Grow 0 fun q => ((e q : ℝ) : ℂ)) :
    LegG om p e d :=
  ⟨he, .TL h hm, .R0 om p he d, .PF om p he d, .invP h hm, .invM h hm, .invD h hm⟩

theorem LegG.massive {om : ℝ} (ho : om ≠ 0) (p : ℝ) {m : ℝ} (hm : m ≠ 0) (d : ℝ) : LegG om p (fun q => energy q m) d :=
  .of (.massive ho p hm d) (energy_meas m) (.energy m)

theorem LegG.massless {om : ℝ} (ho : om ≠ 0) (p : ℝ) {d : ℝ} (hd : 0 < om ^ 2 + p ^ 2 + d) : LegG om p (fun q => q) d :=
  .of (.of_le ho p (fun _ _ => le_rfl) hd) measurable_id Grow.id.weaken

theorem Grow.id_mul_inv : Grow 0 fun q => (q : ℂ) * (q : ℂ)⁻¹ :=
  .ofBound (by fun_prop) 1 fun q hq => by
    rw [mul_inv_cancel₀ (Complex.ofReal_ne_zero.2 hq.ne')]; simp

syntax "grow" : tactic
macro_rules | `(tactic| grow) => `(tactic| first
  | assumption
  | exact Grow.const _
  | exact Grow.id
  | exact Grow.id.weaken
  | exact Grow.id_mul_inv
  | exact Grow.weaken (by assumption)
  | (refine Grow.add ?_ ?_ <;> grow)
  | (refine Grow.sub ?_ ?_ <;> grow)
  | (refine Grow.neg ?_ <;> grow)
  | (refine Grow.mul00 ?_ ?_ <;> grow)
  | (refine Grow.mul10 ?_ ?_ <;> grow)
  | (refine Grow.mul01 ?_ ?_ <;> grow))

local notation "E[" q "," m "]" => ((energy (q : ℝ) (m : ℝ) : ℝ) : ℂ)
local notation "n[" x "," b "]" => ((bose_distribution_zero_chempot (x : ℝ) (b : ℝ) : ℝ) : ℂ)

variable {b0 om p m : ℝ}

theorem pos_sum (ho : om ≠ 0) (p : ℝ) {d : ℝ} (hd : 0 ≤ d) : 0 < om ^ 2 + p ^ 2 + d := by
  have := sq_nonneg p
  have : 0 < om ^ 2 := by positivity
  linarith

theorem dom_i_m_0_i (h0 : 0 < b0) (ho : om ≠ 0) (hm : m ≠ 0) : Dom b0 fun b q => thermal.i_m_0_i q om p m b := by
  have e : ∀ b q, thermal.i_m_0_i q om p m b =
      n[energy q m,b] * ((p * 16 * PI2 : ℂ)⁻¹ * ((q : ℂ) * E[q,m]⁻¹ * ((TL q (om : ℂ) p E[q,m] ((-m * m : ℝ) : ℂ)) + (TL q ((-om : ℝ) : ℂ) p E[q,m] ((-m * m : ℝ) : ℂ)))))
      + n[q,b] * ((p * 16 * PI2 : ℂ)⁻¹ * ((TL q (om : ℂ) p (q : ℂ) ((-(-m * m) : ℝ) : ℂ)) + (TL q ((-om : ℝ) : ℂ) p (q : ℂ) ((-(-m * m) : ℝ) : ℂ)))) := by
    intro b q
    simp only [thermal.i_m_0_i, tlog_eq, tlog_same_mass_eq, tlog_zero_mass_eq, tlog_l_eq, tlog_l_same_mass_eq, tlog_l_zero_mass_eq, tlog_t_eq, tlog_t_same_mass_eq,
      tlog_t_zero_mass_eq, r_0_eq, r_0_same_mass_eq, toC_real, toC_complex, ofR_real, ofR_complex]
    push_cast
    ring
  simp only [e]
  obtain ⟨_, _, _, _, _, _, _⟩ := LegG.massive ho p hm (-m * m)
  obtain ⟨_, _, _, _, _, _, _⟩ := LegG.massive (neg_ne_zero.2 ho) p hm (-m * m)
  obtain ⟨_, _, _, _, _, _, _⟩ := LegG.massless ho p (d := -(-m * m)) (pos_sum ho p (by nlinarith [mul_self_nonneg m]))
  obtain ⟨_, _, _, _, _, _, _⟩ := LegG.massless (neg_ne_zero.2 ho) p (d := -(-m * m)) (pos_sum (neg_ne_zero.2 ho) p (by nlinarith [mul_self_nonneg m]))
  have hi := Grow.energy_inv hm
  have he := Grow.energy m
  exact (((Dom.bose_massive h0 hm).mul (by grow))).add (Dom.bose_massless h0 (by grow))

theorem dom_i_m_m_i_same_mass (h0 : 0 < b0) (ho : om ≠ 0) (hm : m ≠ 0) : Dom b0 fun b q => thermal.i_m_m_i_same_mass q om p m b := by
  have e : ∀ b q, thermal.i_m_m_i_same_mass q om p m b =
      n[energy q m,b] * ((p * 8 * PI2 : ℂ)⁻¹ * ((q : ℂ) * E[q,m]⁻¹ * ((TL q (om : ℂ) p E[q,m] ((0 : ℝ) : ℂ)) + (TL q ((-om : ℝ) : ℂ) p E[q,m] ((0 : ℝ) : ℂ))))) := by
    intro b q
    simp only [thermal.i_m_m_i_same_mass, tlog_eq, tlog_same_mass_eq, tlog_zero_mass_eq, tlog_l_eq, tlog_l_same_mass_eq, tlog_l_zero_mass_eq, tlog_t_eq, tlog_t_same_mass_eq,
      tlog_t_zero_mass_eq, r_0_eq, r_0_same_mass_eq, toC_real, toC_complex, ofR_real, ofR_complex]
    push_cast
    ring
  simp only [e]
  obtain ⟨_, _, _, _, _, _, _⟩ := LegG.massive ho p hm 0
  obtain ⟨_, _, _, _, _, _, _⟩ := LegG.massive (neg_ne_zero.2 ho) p hm 0
  have hi := Grow.energy_inv hm
  have he := Grow.energy m
  exact ((Dom.bose_massive h0 hm).mul (by grow))

theorem dom_i_0_0_i (h0 : 0 < b0) (ho : om ≠ 0) : Dom b0 fun b q => thermal.i_0_0_i q om p b := by
  have e : ∀ b q, thermal.i_0_0_i q om p b =
      n[q,b] * ((p * 8 * PI2 : ℂ)⁻¹ * ((TL q (om : ℂ) p (q : ℂ) ((0 : ℝ) : ℂ)) + (TL q ((-om : ℝ) : ℂ) p (q : ℂ) ((0 : ℝ) : ℂ)))) := by
    intro b q
    simp only [thermal.i_0_0_i, tlog_eq, tlog_same_mass_eq, tlog_zero_mass_eq, tlog_l_eq, tlog_l_same_mass_eq, tlog_l_zero_mass_eq, tlog_t_eq, tlog_t_same_mass_eq,
      tlog_t_zero_mass_eq, r_0_eq, r_0_same_mass_eq, toC_real, toC_complex, ofR_real, ofR_complex]
    push_cast
    ring
  simp only [e]
  obtain ⟨_, _, _, _, _, _, _⟩ := LegG.massless ho p (d := 0) (pos_sum ho p le_rfl)
  obtain ⟨_, _, _, _, _, _, _⟩ := LegG.massless (neg_ne_zero.2 ho) p (d := 0) (pos_sum (neg_ne_zero.2 ho) p le_rfl)
  exact (Dom.bose_massless h0 (by grow))

theorem dom_i_m_0_l_i (h0 : 0 < b0) (ho : om ≠ 0) (hm : m ≠ 0) : Dom b0 fun b q => thermal.i_m_0_l_i q om p m b := by
  have e : ∀ b q, thermal.i_m_0_l_i q om p m b =
      n[energy q m,b] * (((om : ℂ) * om * ((p : ℂ) * p * p * (om * om + p * p) * 64 * PI2)⁻¹) * ((q : ℂ) * E[q,m]⁻¹ * ((TL q (om : ℂ) p E[q,m] ((-m * m : ℝ) : ℂ)) * (PF (om : ℂ) p E[q,m] ((-m * m : ℝ) : ℂ)) * (PF (om : ℂ) p E[q,m] ((-m * m : ℝ) : ℂ)) + (TL q ((-om : ℝ) : ℂ) p E[q,m] ((-m * m : ℝ) : ℂ)) * (PF ((-om : ℝ) : ℂ) p E[q,m] ((-m * m : ℝ) : ℂ)) * (PF ((-om : ℝ) : ℂ) p E[q,m] ((-m * m : ℝ) : ℂ)) - q * ((p : ℂ) * 8 * (om * om + p * p + -(m * m))))))
      + n[q,b] * (((om : ℂ) * om * ((p : ℂ) * p * p * (om * om + p * p) * 64 * PI2)⁻¹) * ((TL q (om : ℂ) p (q : ℂ) ((-(-m * m) : ℝ) : ℂ)) * (PF (om : ℂ) p (q : ℂ) ((-(-m * m) : ℝ) : ℂ)) * (PF (om : ℂ) p (q : ℂ) ((-(-m * m) : ℝ) : ℂ)) + (TL q ((-om : ℝ) : ℂ) p (q : ℂ) ((-(-m * m) : ℝ) : ℂ)) * (PF ((-om : ℝ) : ℂ) p (q : ℂ) ((-(-m * m) : ℝ) : ℂ)) * (PF ((-om : ℝ) : ℂ) p (q : ℂ) ((-(-m * m) : ℝ) : ℂ)) - q * ((p : ℂ) * 8 * (om * om + p * p + m * m)))) := by
    intro b q
    simp only [thermal.i_m_0_l_i, tlog_eq, tlog_same_mass_eq, tlog_zero_mass_eq, tlog_l_eq, tlog_l_same_mass_eq, tlog_l_zero_mass_eq, tlog_t_eq, tlog_t_same_mass_eq,
      tlog_t_zero_mass_eq, r_0_eq, r_0_same_mass_eq, toC_real, toC_complex, ofR_real, ofR_complex]
    push_cast
    ring
  simp only [e]
  obtain ⟨_, _, _, _, _, _, _⟩ := LegG.massive ho p hm (-m * m)
  obtain ⟨_, _, _, _, _, _, _⟩ := LegG.massive (neg_ne_zero.2 ho) p hm (-m * m)
  obtain ⟨_, _, _, _, _, _, _⟩ := LegG.massless ho p (d := -(-m * m)) (pos_sum ho p (by nlinarith [mul_self_nonneg m]))
  obtain ⟨_, _, _, _, _, _, _⟩ := LegG.massless (neg_ne_zero.2 ho) p (d := -(-m * m)) (pos_sum (neg_ne_zero.2 ho) p (by nlinarith [mul_self_nonneg m]))
  have hi := Grow.energy_inv hm
  have he := Grow.energy m
  exact (((Dom.bose_massive h0 hm).mul (by grow))).add (Dom.bose_massless h0 (by grow))

theorem dom_i_m_m_l_i_same_mass (h0 : 0 < b0) (ho : om ≠ 0) (hm : m ≠ 0) : Dom b0 fun b q => thermal.i_m_m_l_i_same_mass q om p m b := by
  have e : ∀ b q, thermal.i_m_m_l_i_same_mass q om p m b =
      n[energy q m,b] * (((om : ℂ) * om * ((p : ℂ) * p * p * (om * om + p * p) * 32 * PI2)⁻¹) * ((q : ℂ) * E[q,m]⁻¹ * ((TL q (om : ℂ) p E[q,m] ((0 : ℝ) : ℂ)) * (PF (om : ℂ) p E[q,m] ((0 : ℝ) : ℂ)) * (PF (om : ℂ) p E[q,m] ((0 : ℝ) : ℂ)) + (TL q ((-om : ℝ) : ℂ) p E[q,m] ((0 : ℝ) : ℂ)) * (PF ((-om : ℝ) : ℂ) p E[q,m] ((0 : ℝ) : ℂ)) * (PF ((-om : ℝ) : ℂ) p E[q,m] ((0 : ℝ) : ℂ)) - q * ((p : ℂ) * 8 * (om * om + p * p))))) := by
    intro b q
    simp only [thermal.i_m_m_l_i_same_mass, tlog_eq, tlog_same_mass_eq, tlog_zero_mass_eq, tlog_l_eq, tlog_l_same_mass_eq, tlog_l_zero_mass_eq, tlog_t_eq, tlog_t_same_mass_eq,
      tlog_t_zero_mass_eq, r_0_eq, r_0_same_mass_eq, toC_real, toC_complex, ofR_real, ofR_complex]
    push_cast
    ring
  simp only [e]
  obtain ⟨_, _, _, _, _, _, _⟩ := LegG.massive ho p hm 0
  obtain ⟨_, _, _, _, _, _, _⟩ := LegG.massive (neg_ne_zero.2 ho) p hm 0
  have hi := Grow.energy_inv hm
  have he := Grow.energy m
  exact ((Dom.bose_massive h0 hm).mul (by grow))

theorem dom_i_0_0_l_i (h0 : 0 < b0) (ho : om ≠ 0) : Dom b0 fun b q => thermal.i_0_0_l_i q om p b := by
  have e : ∀ b q, thermal.i_0_0_l_i q om p b =
      n[q,b] * (((om : ℂ) * om * ((p : ℂ) * p * p * (om * om + p * p) * 32 * PI2)⁻¹) * ((TL q (om : ℂ) p (q : ℂ) ((0 : ℝ) : ℂ)) * (PF (om : ℂ) p (q : ℂ) ((0 : ℝ) : ℂ)) * (PF (om : ℂ) p (q : ℂ) ((0 : ℝ) : ℂ)) + (TL q ((-om : ℝ) : ℂ) p (q : ℂ) ((0 : ℝ) : ℂ)) * (PF ((-om : ℝ) : ℂ) p (q : ℂ) ((0 : ℝ) : ℂ)) * (PF ((-om : ℝ) : ℂ) p (q : ℂ) ((0 : ℝ) : ℂ)) - q * ((p : ℂ) * 8 * (om * om + p * p)))) := by
    intro b q
    simp only [thermal.i_0_0_l_i, tlog_eq, tlog_same_mass_eq, tlog_zero_mass_eq, tlog_l_eq, tlog_l_same_mass_eq, tlog_l_zero_mass_eq, tlog_t_eq, tlog_t_same_mass_eq,
      tlog_t_zero_mass_eq, r_0_eq, r_0_same_mass_eq, toC_real, toC_complex, ofR_real, ofR_complex]
    push_cast
    ring
  simp only [e]
  obtain ⟨_, _, _, _, _, _, _⟩ := LegG.massless ho p (d := 0) (pos_sum ho p le_rfl)
  obtain ⟨_, _, _, _, _, _, _⟩ := LegG.massless (neg_ne_zero.2 ho) p (d := 0) (pos_sum (neg_ne_zero.2 ho) p le_rfl)
  exact (Dom.bose_massless h0 (by grow))

theorem dom_i_m_0_t_i (h0 : 0 < b0) (ho : om ≠ 0) (hm : m ≠ 0) : Dom b0 fun b q => thermal.i_m_0_t_i q om p m b := by
  have e : ∀ b q, thermal.i_m_0_t_i q om p m b =
      n[energy q m,b] * ((-((p : ℂ) * p * p * 128 * PI2)⁻¹) * ((q : ℂ) * E[q,m]⁻¹ * ((((R0 (om : ℂ) p E[q,m] ((-m * m : ℝ) : ℂ)) + q * 2 * p) * ((R0 (om : ℂ) p E[q,m] ((-m * m : ℝ) : ℂ)) - q * 2 * p) * (TL q (om : ℂ) p E[q,m] ((-m * m : ℝ) : ℂ))) + (((R0 ((-om : ℝ) : ℂ) p E[q,m] ((-m * m : ℝ) : ℂ)) + q * 2 * p) * ((R0 ((-om : ℝ) : ℂ) p E[q,m] ((-m * m : ℝ) : ℂ)) - q * 2 * p) * (TL q ((-om : ℝ) : ℂ) p E[q,m] ((-m * m : ℝ) : ℂ))) - q * ((p : ℂ) * 8 * (om * om + p * p + -(m * m))))))
      + n[q,b] * ((-((p : ℂ) * p * p * 128 * PI2)⁻¹) * ((((R0 (om : ℂ) p (q : ℂ) ((-(-m * m) : ℝ) : ℂ)) + q * 2 * p) * ((R0 (om : ℂ) p (q : ℂ) ((-(-m * m) : ℝ) : ℂ)) - q * 2 * p) * (TL q (om : ℂ) p (q : ℂ) ((-(-m * m) : ℝ) : ℂ))) + (((R0 ((-om : ℝ) : ℂ) p (q : ℂ) ((-(-m * m) : ℝ) : ℂ)) + q * 2 * p) * ((R0 ((-om : ℝ) : ℂ) p (q : ℂ) ((-(-m * m) : ℝ) : ℂ)) - q * 2 * p) * (TL q ((-om : ℝ) : ℂ) p (q : ℂ) ((-(-m * m) : ℝ) : ℂ))) - q * ((p : ℂ) * 8 * (om * om + p * p + m * m)))) := by
    intro b q
    simp only [thermal.i_m_0_t_i, tlog_eq, tlog_same_mass_eq, tlog_zero_mass_eq, tlog_l_eq, tlog_l_same_mass_eq, tlog_l_zero_mass_eq, tlog_t_eq, tlog_t_same_mass_eq,
      tlog_t_zero_mass_eq, r_0_eq, r_0_same_mass_eq, toC_real, toC_complex, ofR_real, ofR_complex]
    push_cast
    ring
  simp only [e]
  obtain ⟨_, _, _, _, _, _, _⟩ := LegG.massive ho p hm (-m * m)
  obtain ⟨_, _, _, _, _, _, _⟩ := LegG.massive (neg_ne_zero.2 ho) p hm (-m * m)
  obtain ⟨_, _, _, _, _, _, _⟩ := LegG.massless ho p (d := -(-m * m)) (pos_sum ho p (by nlinarith [mul_self_nonneg m]))
  obtain ⟨_, _, _, _, _, _, _⟩ := LegG.massless (neg_ne_zero.2 ho) p (d := -(-m * m)) (pos_sum (neg_ne_zero.2 ho) p (by nlinarith [mul_self_nonneg m]))
  have hi := Grow.energy_inv hm
  have he := Grow.energy m
  exact (((Dom.bose_massive h0 hm).mul (by grow))).add (Dom.bose_massless h0 (by grow))

theorem dom_i_m_m_t_i_same_mass (h0 : 0 < b0) (ho : om ≠ 0) (hm : m ≠ 0) : Dom b0 fun b q => thermal.i_m_m_t_i_same_mass q om p m b := by
  have e : ∀ b q, thermal.i_m_m_t_i_same_mass q om p m b =
      n[energy q m,b] * ((-((p : ℂ) * p * p * 64 * PI2)⁻¹) * ((q : ℂ) * E[q,m]⁻¹ * ((((R0 (om : ℂ) p E[q,m] ((0 : ℝ) : ℂ)) + q * 2 * p) * ((R0 (om : ℂ) p E[q,m] ((0 : ℝ) : ℂ)) - q * 2 * p) * (TL q (om : ℂ) p E[q,m] ((0 : ℝ) : ℂ))) + (((R0 ((-om : ℝ) : ℂ) p E[q,m] ((0 : ℝ) : ℂ)) + q * 2 * p) * ((R0 ((-om : ℝ) : ℂ) p E[q,m] ((0 : ℝ) : ℂ)) - q * 2 * p) * (TL q ((-om : ℝ) : ℂ) p E[q,m] ((0 : ℝ) : ℂ))) - q * ((p : ℂ) * 8 * (om * om + p * p))))) := by
    intro b q
    simp only [thermal.i_m_m_t_i_same_mass, tlog_eq, tlog_same_mass_eq, tlog_zero_mass_eq, tlog_l_eq, tlog_l_same_mass_eq, tlog_l_zero_mass_eq, tlog_t_eq, tlog_t_same_mass_eq,
      tlog_t_zero_mass_eq, r_0_eq, r_0_same_mass_eq, toC_real, toC_complex, ofR_real, ofR_complex]
    push_cast
    ring
  simp only [e]
  obtain ⟨_, _, _, _, _, _, _⟩ := LegG.massive ho p hm 0
  obtain ⟨_, _, _, _, _, _, _⟩ := LegG.massive (neg_ne_zero.2 ho) p hm 0
  have hi := Grow.energy_inv hm
  have he := Grow.energy m
  exact ((Dom.bose_massive h0 hm).mul (by grow))

theorem dom_i_0_0_t_i (h0 : 0 < b0) (ho : om ≠ 0) : Dom b0 fun b q => thermal.i_0_0_t_i q om p b := by
  have e : ∀ b q, thermal.i_0_0_t_i q om p b =
      n[q,b] * ((-((p : ℂ) * p * p * 64 * PI2)⁻¹) * ((((R0 (om : ℂ) p (q : ℂ) ((0 : ℝ) : ℂ)) + q * 2 * p) * ((R0 (om : ℂ) p (q : ℂ) ((0 : ℝ) : ℂ)) - q * 2 * p) * (TL q (om : ℂ) p (q : ℂ) ((0 : ℝ) : ℂ))) + (((R0 ((-om : ℝ) : ℂ) p (q : ℂ) ((0 : ℝ) : ℂ)) + q * 2 * p) * ((R0 ((-om : ℝ) : ℂ) p (q : ℂ) ((0 : ℝ) : ℂ)) - q * 2 * p) * (TL q ((-om : ℝ) : ℂ) p (q : ℂ) ((0 : ℝ) : ℂ))) - q * ((p : ℂ) * 8 * (om * om + p * p)))) := by
    intro b q
    simp only [thermal.i_0_0_t_i, tlog_eq, tlog_same_mass_eq, tlog_zero_mass_eq, tlog_l_eq, tlog_l_same_mass_eq, tlog_l_zero_mass_eq, tlog_t_eq, tlog_t_same_mass_eq,
      tlog_t_zero_mass_eq, r_0_eq, r_0_same_mass_eq, toC_real, toC_complex, ofR_real, ofR_complex]
    push_cast
    ring
  simp only [e]
  obtain ⟨_, _, _, _, _, _, _⟩ := LegG.massless ho p (d := 0) (pos_sum ho p le_rfl)
  obtain ⟨_, _, _, _, _, _, _⟩ := LegG.massless (neg_ne_zero.2 ho) p (d := 0) (pos_sum (neg_ne_zero.2 ho) p le_rfl)
  exact (Dom.bose_massless h0 (by grow))

theorem dom_j_m_i (h0 : 0 < b0) (hm : m ≠ 0) : Dom b0 fun b q => ((thermal.j_m_i q m b : ℝ) : ℂ) := by
  have e : ∀ b q, ((thermal.j_m_i q m b : ℝ) : ℂ) =
      n[energy q m,b] * ((2 * PI2 : ℂ)⁻¹ * ((q : ℂ) * q * E[q,m]⁻¹)) := by
    intro b q
    simp only [thermal.j_m_i, tlog_eq, tlog_same_mass_eq, tlog_zero_mass_eq, tlog_l_eq, tlog_l_same_mass_eq, tlog_l_zero_mass_eq, tlog_t_eq, tlog_t_same_mass_eq,
      tlog_t_zero_mass_eq, r_0_eq, r_0_same_mass_eq, toC_real, toC_complex, ofR_real, ofR_complex]
    push_cast
    ring
  simp only [e]
  have hi := Grow.energy_inv hm
  have he := Grow.energy m
  exact ((Dom.bose_massive h0 hm).mul (by grow))

theorem dom_j_0_i (h0 : 0 < b0) : Dom b0 fun b q => ((thermal.j_0_i q b : ℝ) : ℂ) := by
  have e : ∀ b q, ((thermal.j_0_i q b : ℝ) : ℂ) =
      n[q,b] * ((q : ℂ) * (2 * PI2 : ℂ)⁻¹) := by
    intro b q
    simp only [thermal.j_0_i, tlog_eq, tlog_same_mass_eq, tlog_zero_mass_eq, tlog_l_eq, tlog_l_same_mass_eq, tlog_l_zero_mass_eq, tlog_t_eq, tlog_t_same_mass_eq,
      tlog_t_zero_mass_eq, r_0_eq, r_0_same_mass_eq, toC_real, toC_complex, ofR_real, ofR_complex]
    push_cast
    ring
  simp only [e]
  exact (Dom.bose_massless h0 (by grow))

theorem dom_j_m_l_i (h0 : 0 < b0) (hm : m ≠ 0) : Dom b0 fun b q => ((thermal.j_m_l_i q m b : ℝ) : ℂ) := by
  have e : ∀ b q, ((thermal.j_m_l_i q m b : ℝ) : ℂ) =
      n[energy q m,b] * (-((q : ℂ) * q * E[q,m] * (2 * PI2 : ℂ)⁻¹)) := by
    intro b q
    simp only [thermal.j_m_l_i, tlog_eq, tlog_same_mass_eq, tlog_zero_mass_eq, tlog_l_eq, tlog_l_same_mass_eq, tlog_l_zero_mass_eq, tlog_t_eq, tlog_t_same_mass_eq,
      tlog_t_zero_mass_eq, r_0_eq, r_0_same_mass_eq, toC_real, toC_complex, ofR_real, ofR_complex]
    push_cast
    ring
  simp only [e]
  have hi := Grow.energy_inv hm
  have he := Grow.energy m
  exact ((Dom.bose_massive h0 hm).mul (by grow))

theorem dom_j_0_l_i (h0 : 0 < b0) : Dom b0 fun b q => ((thermal.j_0_l_i q b : ℝ) : ℂ) := by
  have e : ∀ b q, ((thermal.j_0_l_i q b : ℝ) : ℂ) =
      n[q,b] * (-((q : ℂ) * ((q : ℂ) * q * (2 * PI2 : ℂ)⁻¹))) := by
    intro b q
    simp only [thermal.j_0_l_i, tlog_eq, tlog_same_mass_eq, tlog_zero_mass_eq, tlog_l_eq, tlog_l_same_mass_eq, tlog_l_zero_mass_eq, tlog_t_eq, tlog_t_same_mass_eq,
      tlog_t_zero_mass_eq, r_0_eq, r_0_same_mass_eq, toC_real, toC_complex, ofR_real, ofR_complex]
    push_cast
    ring
  simp only [e]
  exact (Dom.bose_massless h0 (by grow))

theorem dom_j_m_t_i (h0 : 0 < b0) (hm : m ≠ 0) : Dom b0 fun b q => ((thermal.j_m_t_i q m b : ℝ) : ℂ) := by
  have e : ∀ b q, ((thermal.j_m_t_i q m b : ℝ) : ℂ) =
      n[energy q m,b] * ((q : ℂ) * q * q * q * E[q,m]⁻¹ * (6 * PI2 : ℂ)⁻¹) := by
    intro b q
    simp only [thermal.j_m_t_i, tlog_eq, tlog_same_mass_eq, tlog_zero_mass_eq, tlog_l_eq, tlog_l_same_mass_eq, tlog_l_zero_mass_eq, tlog_t_eq, tlog_t_same_mass_eq,
      tlog_t_zero_mass_eq, r_0_eq, r_0_same_mass_eq, toC_real, toC_complex, ofR_real, ofR_complex]
    push_cast
    ring
  simp only [e]
  have hi := Grow.energy_inv hm
  have he := Grow.energy m
  exact ((Dom.bose_massive h0 hm).mul (by grow))

theorem dom_j_0_t_i (h0 : 0 < b0) : Dom b0 fun b q => ((thermal.j_0_t_i q b : ℝ) : ℂ) := by
  have e : ∀ b q, ((thermal.j_0_t_i q b : ℝ) : ℂ) =
      n[q,b] * ((q : ℂ) * ((q : ℂ) * q * (6 * PI2 : ℂ)⁻¹)) := by
    intro b q
    simp only [thermal.j_0_t_i, tlog_eq, tlog_same_mass_eq, tlog_zero_mass_eq, tlog_l_eq, tlog_l_same_mass_eq, tlog_l_zero_mass_eq, tlog_t_eq, tlog_t_same_mass_eq,
      tlog_t_zero_mass_eq, r_0_eq, r_0_same_mass_eq, toC_real, toC_complex, ofR_real, ofR_complex]
    push_cast
    ring
  simp only [e]
  exact (Dom.bose_massless h0 (by grow))

theorem dom_d_j_m_i (h0 : 0 < b0) (hm : m ≠ 0) : Dom b0 fun b q => ((thermal.d_j_m_i q m b : ℝ) : ℂ) := by
  have e : ∀ b q, ((thermal.d_j_m_i q m b : ℝ) : ℂ) =
      n[energy q m,b] * (-(E[q,m]⁻¹ * (4 * PI2 : ℂ)⁻¹)) := by
    intro b q
    simp only [thermal.d_j_m_i, tlog_eq, tlog_same_mass_eq, tlog_zero_mass_eq, tlog_l_eq, tlog_l_same_mass_eq, tlog_l_zero_mass_eq, tlog_t_eq, tlog_t_same_mass_eq,
      tlog_t_zero_mass_eq, r_0_eq, r_0_same_mass_eq, toC_real, toC_complex, ofR_real, ofR_complex]
    push_cast
    ring
  simp only [e]
  have hi := Grow.energy_inv hm
  have he := Grow.energy m
  exact ((Dom.bose_massive h0 hm).mul (by grow))

theorem dom_d_j_m_l_i (h0 : 0 < b0) (hm : m ≠ 0) : Dom b0 fun b q => ((thermal.d_j_m_l_i q m b : ℝ) : ℂ) := by
  have e : ∀ b q, ((thermal.d_j_m_l_i q m b : ℝ) : ℂ) =
      n[energy q m,b] * (E[q,m] * (4 * PI2 : ℂ)⁻¹) := by
    intro b q
    simp only [thermal.d_j_m_l_i, tlog_eq, tlog_same_mass_eq, tlog_zero_mass_eq, tlog_l_eq, tlog_l_same_mass_eq, tlog_l_zero_mass_eq, tlog_t_eq, tlog_t_same_mass_eq,
      tlog_t_zero_mass_eq, r_0_eq, r_0_same_mass_eq, toC_real, toC_complex, ofR_real, ofR_complex]
    push_cast
    ring
  simp only [e]
  have hi := Grow.energy_inv hm
  have he := Grow.energy m
  exact ((Dom.bose_massive h0 hm).mul (by grow))

theorem dom_d_j_m_t_i (h0 : 0 < b0) (hm : m ≠ 0) : Dom b0 fun b q => ((thermal.d_j_m_t_i q m b : ℝ) : ℂ) := by
  have e : ∀ b q, ((thermal.d_j_m_t_i q m b : ℝ) : ℂ) =
      n[energy q m,b] * (-((q : ℂ) * q * E[q,m]⁻¹ * (4 * PI2 : ℂ)⁻¹)) := by
    intro b q
    simp only [thermal.d_j_m_t_i, tlog_eq, tlog_same_mass_eq, tlog_zero_mass_eq, tlog_l_eq, tlog_l_same_mass_eq, tlog_l_zero_mass_eq, tlog_t_eq, tlog_t_same_mass_eq,
      tlog_t_zero_mass_eq, r_0_eq, r_0_same_mass_eq, toC_real, toC_complex, ofR_real, ofR_complex]
    push_cast
    ring
  simp only [e]
  have hi := Grow.energy_inv hm
  have he := Grow.energy m
  exact ((Dom.bose_massive h0 hm).mul (by grow))

theorem dom_d2_j_m_t_i (h0 : 0 < b0) (hm : m ≠ 0) : Dom b0 fun b q => ((thermal.d2_j_m_t_i q m b : ℝ) : ℂ) := by
  have e : ∀ b q, ((thermal.d2_j_m_t_i q m b : ℝ) : ℂ) =
      n[energy q m,b] * (E[q,m]⁻¹ * (8 * PI2 : ℂ)⁻¹) := by
    intro b q
    simp only [thermal.d2_j_m_t_i, tlog_eq, tlog_same_mass_eq, tlog_zero_mass_eq, tlog_l_eq, tlog_l_same_mass_eq, tlog_l_zero_mass_eq, tlog_t_eq, tlog_t_same_mass_eq,
      tlog_t_zero_mass_eq, r_0_eq, r_0_same_mass_eq, toC_real, toC_complex, ofR_real, ofR_complex]
    push_cast
    ring
  simp only [e]
  have hi := Grow.energy_inv hm
  have he := Grow.energy m
  exact ((Dom.bose_massive h0 hm).mul (by grow))

theorem dom_d2_j_m_l_i (h0 : 0 < b0) (hm : m ≠ 0) : Dom b0 fun b q => ((thermal.d2_j_m_l_i q m b : ℝ) : ℂ) := by
  have e : ∀ b q, ((thermal.d2_j_m_l_i q m b : ℝ) : ℂ) =
      n[energy q m,b] * (E[q,m]⁻¹ * (8 * PI2 : ℂ)⁻¹)
      + ((b * bose_distribution_zero_chempot (energy q m) b * bose_distribution_zero_chempot (-energy q m) b : ℝ) : ℂ) * ((8 * PI2 : ℂ)⁻¹) := by
    intro b q
    simp only [thermal.d2_j_m_l_i, tlog_eq, tlog_same_mass_eq, tlog_zero_mass_eq, tlog_l_eq, tlog_l_same_mass_eq, tlog_l_zero_mass_eq, tlog_t_eq, tlog_t_same_mass_eq,
      tlog_t_zero_mass_eq, r_0_eq, r_0_same_mass_eq, toC_real, toC_complex, ofR_real, ofR_complex]
    push_cast
    ring
  simp only [e]
  have hi := Grow.energy_inv hm
  have he := Grow.energy m
  exact (((Dom.bose_massive h0 hm).mul (by grow))).add ((Dom.bose_deriv h0 hm).mul (by grow))

theorem dom_d_i_m_m_i_same_mass (h0 : 0 < b0) (ho : om ≠ 0) (hm : m ≠ 0) : Dom b0 fun b q => thermal.d_i_m_m_i_same_mass q om p m b := by
  have e : ∀ b q, thermal.d_i_m_m_i_same_mass q om p m b =
      n[energy q m,b] * (-((16 * PI2 : ℂ)⁻¹ * (E[q,m]⁻¹ * ((((p : ℂ) * q * 2 + R0 (om : ℂ) p E[q,m] ((0 : ℝ) : ℂ))⁻¹) + ((-((p : ℂ) * q * 2) + R0 (om : ℂ) p E[q,m] ((0 : ℝ) : ℂ))⁻¹) + (((p : ℂ) * q * 2 + R0 ((-om : ℝ) : ℂ) p E[q,m] ((0 : ℝ) : ℂ))⁻¹) + ((-((p : ℂ) * q * 2) + R0 ((-om : ℝ) : ℂ) p E[q,m] ((0 : ℝ) : ℂ))⁻¹))))) := by
    intro b q
    simp only [thermal.d_i_m_m_i_same_mass, tlog_eq, tlog_same_mass_eq, tlog_zero_mass_eq, tlog_l_eq, tlog_l_same_mass_eq, tlog_l_zero_mass_eq, tlog_t_eq, tlog_t_same_mass_eq,
      tlog_t_zero_mass_eq, r_0_eq, r_0_same_mass_eq, toC_real, toC_complex, ofR_real, ofR_complex]
    push_cast
    ring
  simp only [e]
  obtain ⟨_, _, _, _, _, _, _⟩ := LegG.massive ho p hm 0
  obtain ⟨_, _, _, _, _, _, _⟩ := LegG.massive (neg_ne_zero.2 ho) p hm 0
  have hi := Grow.energy_inv hm
  have he := Grow.energy m
  exact ((Dom.bose_massive h0 hm).mul (by grow))

theorem dom_d_i_m_0_i (h0 : 0 < b0) (ho : om ≠ 0) (hm : m ≠ 0) : Dom b0 fun b q => thermal.d_i_m_0_i q om p m b := by
  have e : ∀ b q, thermal.d_i_m_0_i q om p m b =
      n[energy q m,b] * (-((16 * PI2 : ℂ)⁻¹ * (E[q,m]⁻¹ * ((((p : ℂ) * q * 2 + R0 (om : ℂ) p E[q,m] ((-m * m : ℝ) : ℂ))⁻¹) + ((-((p : ℂ) * q * 2) + R0 (om : ℂ) p E[q,m] ((-m * m : ℝ) : ℂ))⁻¹) + (((p : ℂ) * q * 2 + R0 ((-om : ℝ) : ℂ) p E[q,m] ((-m * m : ℝ) : ℂ))⁻¹) + ((-((p : ℂ) * q * 2) + R0 ((-om : ℝ) : ℂ) p E[q,m] ((-m * m : ℝ) : ℂ))⁻¹)) + E[q,m]⁻¹ * ((p : ℂ)⁻¹ * ((q : ℂ) * (((((p : ℂ) * q * 2 + R0 (om : ℂ) p E[q,m] ((-m * m : ℝ) : ℂ))⁻¹ - (-((p : ℂ) * q * 2) + R0 (om : ℂ) p E[q,m] ((-m * m : ℝ) : ℂ))⁻¹)) + ((((p : ℂ) * q * 2 + R0 ((-om : ℝ) : ℂ) p E[q,m] ((-m * m : ℝ) : ℂ))⁻¹ - (-((p : ℂ) * q * 2) + R0 ((-om : ℝ) : ℂ) p E[q,m] ((-m * m : ℝ) : ℂ))⁻¹))))))))
      + n[q,b] * ((16 * PI2 : ℂ)⁻¹ * ((p : ℂ)⁻¹ * ((q : ℂ) * (q : ℂ)⁻¹ * (((((p : ℂ) * q * 2 + R0 (om : ℂ) p (q : ℂ) ((-(-m * m) : ℝ) : ℂ))⁻¹ - (-((p : ℂ) * q * 2) + R0 (om : ℂ) p (q : ℂ) ((-(-m * m) : ℝ) : ℂ))⁻¹)) + ((((p : ℂ) * q * 2 + R0 ((-om : ℝ) : ℂ) p (q : ℂ) ((-(-m * m) : ℝ) : ℂ))⁻¹ - (-((p : ℂ) * q * 2) + R0 ((-om : ℝ) : ℂ) p (q : ℂ) ((-(-m * m) : ℝ) : ℂ))⁻¹)))))) := by
    intro b q
    simp only [thermal.d_i_m_0_i, tlog_eq, tlog_same_mass_eq, tlog_zero_mass_eq, tlog_l_eq, tlog_l_same_mass_eq, tlog_l_zero_mass_eq, tlog_t_eq, tlog_t_same_mass_eq,
      tlog_t_zero_mass_eq, r_0_eq, r_0_same_mass_eq, toC_real, toC_complex, ofR_real, ofR_complex]
    push_cast
    ring
  simp only [e]
  obtain ⟨_, _, _, _, _, _, _⟩ := LegG.massive ho p hm (-m * m)
  obtain ⟨_, _, _, _, _, _, _⟩ := LegG.massive (neg_ne_zero.2 ho) p hm (-m * m)
  obtain ⟨_, _, _, _, _, _, _⟩ := LegG.massless ho p (d := -(-m * m)) (pos_sum ho p (by nlinarith [mul_self_nonneg m]))
  obtain ⟨_, _, _, _, _, _, _⟩ := LegG.massless (neg_ne_zero.2 ho) p (d := -(-m * m)) (pos_sum (neg_ne_zero.2 ho) p (by nlinarith [mul_self_nonneg m]))
  have hi := Grow.energy_inv hm
  have he := Grow.energy m
  exact (((Dom.bose_massive h0 hm).mul (by grow))).add (Dom.bose_massless h0 (by grow))

theorem dom_d_i_m_m_l_i_same_mass (h0 : 0 < b0) (ho : om ≠ 0) (hm : m ≠ 0) : Dom b0 fun b q => thermal.d_i_m_m_l_i_same_mass q om p m b := by
  have e : ∀ b q, thermal.d_i_m_m_l_i_same_mass q om p m b =
      n[energy q m,b] * (((om : ℂ) * om * ((p : ℂ) * p * (om * om + p * p) * 64 * PI2)⁻¹) * (E[q,m]⁻¹ * (om * om + p * p) * 4 - E[q,m]⁻¹ * (((((p : ℂ) * q * 2 + R0 (om : ℂ) p E[q,m] ((0 : ℝ) : ℂ))⁻¹) * (((R0 (om : ℂ) p E[q,m] ((0 : ℝ) : ℂ)) + E[q,m] * ((p : ℂ) * p * ((om : ℂ)⁻¹ * 2 * Complex.I))) * ((R0 (om : ℂ) p E[q,m] ((0 : ℝ) : ℂ)) + E[q,m] * ((p : ℂ) * p * ((om : ℂ)⁻¹ * 2 * Complex.I)))) + (((p : ℂ) * q * 2 + R0 ((-om : ℝ) : ℂ) p E[q,m] ((0 : ℝ) : ℂ))⁻¹) * (((R0 ((-om : ℝ) : ℂ) p E[q,m] ((0 : ℝ) : ℂ)) - E[q,m] * ((p : ℂ) * p * ((om : ℂ)⁻¹ * 2 * Complex.I))) * ((R0 ((-om : ℝ) : ℂ) p E[q,m] ((0 : ℝ) : ℂ)) - E[q,m] * ((p : ℂ) * p * ((om : ℂ)⁻¹ * 2 * Complex.I))))) + (((-((p : ℂ) * q * 2) + R0 (om : ℂ) p E[q,m] ((0 : ℝ) : ℂ))⁻¹) * (((R0 (om : ℂ) p E[q,m] ((0 : ℝ) : ℂ)) + E[q,m] * ((p : ℂ) * p * ((om : ℂ)⁻¹ * 2 * Complex.I))) * ((R0 (om : ℂ) p E[q,m] ((0 : ℝ) : ℂ)) + E[q,m] * ((p : ℂ) * p * ((om : ℂ)⁻¹ * 2 * Complex.I)))) + ((-((p : ℂ) * q * 2) + R0 ((-om : ℝ) : ℂ) p E[q,m] ((0 : ℝ) : ℂ))⁻¹) * (((R0 ((-om : ℝ) : ℂ) p E[q,m] ((0 : ℝ) : ℂ)) - E[q,m] * ((p : ℂ) * p * ((om : ℂ)⁻¹ * 2 * Complex.I))) * ((R0 ((-om : ℝ) : ℂ) p E[q,m] ((0 : ℝ) : ℂ)) - E[q,m] * ((p : ℂ) * p * ((om : ℂ)⁻¹ * 2 * Complex.I)))))))) := by
    intro b q
    simp only [thermal.d_i_m_m_l_i_same_mass, tlog_eq, tlog_same_mass_eq, tlog_zero_mass_eq, tlog_l_eq, tlog_l_same_mass_eq, tlog_l_zero_mass_eq, tlog_t_eq, tlog_t_same_mass_eq,
      tlog_t_zero_mass_eq, r_0_eq, r_0_same_mass_eq, toC_real, toC_complex, ofR_real, ofR_complex]
    push_cast
    ring
  simp only [e]
  obtain ⟨_, _, _, _, _, _, _⟩ := LegG.massive ho p hm 0
  obtain ⟨_, _, _, _, _, _, _⟩ := LegG.massive (neg_ne_zero.2 ho) p hm 0
  have hi := Grow.energy_inv hm
  have he := Grow.energy m
  exact ((Dom.bose_massive h0 hm).mul (by grow))

theorem dom_d_i_m_0_l_i (h0 : 0 < b0) (ho : om ≠ 0) (hm : m ≠ 0) : Dom b0 fun b q => thermal.d_i_m_0_l_i q om p m b := by
  have e : ∀ b q, thermal.d_i_m_0_l_i q om p m b =
      n[energy q m,b] * (((om : ℂ) * om * ((p : ℂ) * p * (om * om + p * p) * 64 * PI2)⁻¹) * (-(E[q,m]⁻¹ * (((((p : ℂ) * q * 2 + R0 (om : ℂ) p E[q,m] ((-m * m : ℝ) : ℂ))⁻¹) * (((R0 (om : ℂ) p E[q,m] ((-m * m : ℝ) : ℂ)) + E[q,m] * ((p : ℂ) * p * ((om : ℂ)⁻¹ * 2 * Complex.I))) * ((R0 (om : ℂ) p E[q,m] ((-m * m : ℝ) : ℂ)) + E[q,m] * ((p : ℂ) * p * ((om : ℂ)⁻¹ * 2 * Complex.I)))) + (((p : ℂ) * q * 2 + R0 ((-om : ℝ) : ℂ) p E[q,m] ((-m * m : ℝ) : ℂ))⁻¹) * (((R0 ((-om : ℝ) : ℂ) p E[q,m] ((-m * m : ℝ) : ℂ)) - E[q,m] * ((p : ℂ) * p * ((om : ℂ)⁻¹ * 2 * Complex.I))) * ((R0 ((-om : ℝ) : ℂ) p E[q,m] ((-m * m : ℝ) : ℂ)) - E[q,m] * ((p : ℂ) * p * ((om : ℂ)⁻¹ * 2 * Complex.I))))) + (((-((p : ℂ) * q * 2) + R0 (om : ℂ) p E[q,m] ((-m * m : ℝ) : ℂ))⁻¹) * (((R0 (om : ℂ) p E[q,m] ((-m * m : ℝ) : ℂ)) + E[q,m] * ((p : ℂ) * p * ((om : ℂ)⁻¹ * 2 * Complex.I))) * ((R0 (om : ℂ) p E[q,m] ((-m * m : ℝ) : ℂ)) + E[q,m] * ((p : ℂ) * p * ((om : ℂ)⁻¹ * 2 * Complex.I)))) + ((-((p : ℂ) * q * 2) + R0 ((-om : ℝ) : ℂ) p E[q,m] ((-m * m : ℝ) : ℂ))⁻¹) * (((R0 ((-om : ℝ) : ℂ) p E[q,m] ((-m * m : ℝ) : ℂ)) - E[q,m] * ((p : ℂ) * p * ((om : ℂ)⁻¹ * 2 * Complex.I))) * ((R0 ((-om : ℝ) : ℂ) p E[q,m] ((-m * m : ℝ) : ℂ)) - E[q,m] * ((p : ℂ) * p * ((om : ℂ)⁻¹ * 2 * Complex.I))))))) + E[q,m]⁻¹ * (-(m * m) + (om * om + p * p)) * 4 + E[q,m]⁻¹ * q * q * 8 - (p : ℂ)⁻¹ * (E[q,m]⁻¹ * q * (((R0 (om : ℂ) p E[q,m] ((-m * m : ℝ) : ℂ)) + E[q,m] * ((p : ℂ) * p * ((om : ℂ)⁻¹ * 2 * Complex.I))) * (TL q (om : ℂ) p E[q,m] ((-m * m : ℝ) : ℂ)) + ((R0 ((-om : ℝ) : ℂ) p E[q,m] ((-m * m : ℝ) : ℂ)) - E[q,m] * ((p : ℂ) * p * ((om : ℂ)⁻¹ * 2 * Complex.I))) * (TL q ((-om : ℝ) : ℂ) p E[q,m] ((-m * m : ℝ) : ℂ)))) * 2 - (p : ℂ)⁻¹ * (E[q,m]⁻¹ * q * (((((p : ℂ) * q * 2 + R0 (om : ℂ) p E[q,m] ((-m * m : ℝ) : ℂ))⁻¹ - (-((p : ℂ) * q * 2) + R0 (om : ℂ) p E[q,m] ((-m * m : ℝ) : ℂ))⁻¹)) * (((R0 (om : ℂ) p E[q,m] ((-m * m : ℝ) : ℂ)) + E[q,m] * ((p : ℂ) * p * ((om : ℂ)⁻¹ * 2 * Complex.I))) * ((R0 (om : ℂ) p E[q,m] ((-m * m : ℝ) : ℂ)) + E[q,m] * ((p : ℂ) * p * ((om : ℂ)⁻¹ * 2 * Complex.I)))) + ((((p : ℂ) * q * 2 + R0 ((-om : ℝ) : ℂ) p E[q,m] ((-m * m : ℝ) : ℂ))⁻¹ - (-((p : ℂ) * q * 2) + R0 ((-om : ℝ) : ℂ) p E[q,m] ((-m * m : ℝ) : ℂ))⁻¹)) * (((R0 ((-om : ℝ) : ℂ) p E[q,m] ((-m * m : ℝ) : ℂ)) - E[q,m] * ((p : ℂ) * p * ((om : ℂ)⁻¹ * 2 * Complex.I))) * ((R0 ((-om : ℝ) : ℂ) p E[q,m] ((-m * m : ℝ) : ℂ)) - E[q,m] * ((p : ℂ) * p * ((om : ℂ)⁻¹ * 2 * Complex.I))))))))
      + n[q,b] * (((om : ℂ) * om * ((p : ℂ) * p * (om * om + p * p) * 64 * PI2)⁻¹) * (-(q * (8 : ℂ)) + (p : ℂ)⁻¹ * (((R0 (om : ℂ) p (q : ℂ) ((-(-m * m) : ℝ) : ℂ)) + (q : ℂ) * ((p : ℂ) * p * ((om : ℂ)⁻¹ * 2 * Complex.I))) * (TL q (om : ℂ) p (q : ℂ) ((-(-m * m) : ℝ) : ℂ)) + ((R0 ((-om : ℝ) : ℂ) p (q : ℂ) ((-(-m * m) : ℝ) : ℂ)) - (q : ℂ) * ((p : ℂ) * p * ((om : ℂ)⁻¹ * 2 * Complex.I))) * (TL q ((-om : ℝ) : ℂ) p (q : ℂ) ((-(-m * m) : ℝ) : ℂ))) * 2 + (p : ℂ)⁻¹ * (((((p : ℂ) * q * 2 + R0 (om : ℂ) p (q : ℂ) ((-(-m * m) : ℝ) : ℂ))⁻¹ - (-((p : ℂ) * q * 2) + R0 (om : ℂ) p (q : ℂ) ((-(-m * m) : ℝ) : ℂ))⁻¹)) * (((R0 (om : ℂ) p (q : ℂ) ((-(-m * m) : ℝ) : ℂ)) + (q : ℂ) * ((p : ℂ) * p * ((om : ℂ)⁻¹ * 2 * Complex.I))) * ((R0 (om : ℂ) p (q : ℂ) ((-(-m * m) : ℝ) : ℂ)) + (q : ℂ) * ((p : ℂ) * p * ((om : ℂ)⁻¹ * 2 * Complex.I)))) + ((((p : ℂ) * q * 2 + R0 ((-om : ℝ) : ℂ) p (q : ℂ) ((-(-m * m) : ℝ) : ℂ))⁻¹ - (-((p : ℂ) * q * 2) + R0 ((-om : ℝ) : ℂ) p (q : ℂ) ((-(-m * m) : ℝ) : ℂ))⁻¹)) * (((R0 ((-om : ℝ) : ℂ) p (q : ℂ) ((-(-m * m) : ℝ) : ℂ)) - (q : ℂ) * ((p : ℂ) * p * ((om : ℂ)⁻¹ * 2 * Complex.I))) * ((R0 ((-om : ℝ) : ℂ) p (q : ℂ) ((-(-m * m) : ℝ) : ℂ)) - (q : ℂ) * ((p : ℂ) * p * ((om : ℂ)⁻¹ * 2 * Complex.I))))))) := by
    intro b q
    simp only [thermal.d_i_m_0_l_i, tlog_eq, tlog_same_mass_eq, tlog_zero_mass_eq, tlog_l_eq, tlog_l_same_mass_eq, tlog_l_zero_mass_eq, tlog_t_eq, tlog_t_same_mass_eq,
      tlog_t_zero_mass_eq, r_0_eq, r_0_same_mass_eq, toC_real, toC_complex, ofR_real, ofR_complex]
    push_cast
    ring
  simp only [e]
  obtain ⟨_, _, _, _, _, _, _⟩ := LegG.massive ho p hm (-m * m)
  obtain ⟨_, _, _, _, _, _, _⟩ := LegG.massive (neg_ne_zero.2 ho) p hm (-m * m)
  obtain ⟨_, _, _, _, _, _, _⟩ := LegG.massless ho p (d := -(-m * m)) (pos_sum ho p (by nlinarith [mul_self_nonneg m]))
  obtain ⟨_, _, _, _, _, _, _⟩ := LegG.massless (neg_ne_zero.2 ho) p (d := -(-m * m)) (pos_sum (neg_ne_zero.2 ho) p (by nlinarith [mul_self_nonneg m]))
  have hi := Grow.energy_inv hm
  have he := Grow.energy m
  exact (((Dom.bose_massive h0 hm).mul (by grow))).add (Dom.bose_massless h0 (by grow))

theorem dom_d_i_m_m_t_i_same_mass (h0 : 0 < b0) (ho : om ≠ 0) (hm : m ≠ 0) : Dom b0 fun b q => thermal.d_i_m_m_t_i_same_mass q om p m b := by
  have e : ∀ b q, thermal.d_i_m_m_t_i_same_mass q om p m b =
      n[energy q m,b] * (-((p * 32 * PI2 : ℂ)⁻¹ * (E[q,m]⁻¹ * ((TL q (om : ℂ) p E[q,m] ((0 : ℝ) : ℂ)) + (TL q ((-om : ℝ) : ℂ) p E[q,m] ((0 : ℝ) : ℂ))) * q))) := by
    intro b q
    simp only [thermal.d_i_m_m_t_i_same_mass, tlog_eq, tlog_same_mass_eq, tlog_zero_mass_eq, tlog_l_eq, tlog_l_same_mass_eq, tlog_l_zero_mass_eq, tlog_t_eq, tlog_t_same_mass_eq,
      tlog_t_zero_mass_eq, r_0_eq, r_0_same_mass_eq, toC_real, toC_complex, ofR_real, ofR_complex]
    push_cast
    ring
  simp only [e]
  obtain ⟨_, _, _, _, _, _, _⟩ := LegG.massive ho p hm 0
  obtain ⟨_, _, _, _, _, _, _⟩ := LegG.massive (neg_ne_zero.2 ho) p hm 0
  have hi := Grow.energy_inv hm
  have he := Grow.energy m
  exact ((Dom.bose_massive h0 hm).mul (by grow))

theorem dom_d_i_m_0_t_i (h0 : 0 < b0) (ho : om ≠ 0) (hm : m ≠ 0) : Dom b0 fun b q => thermal.d_i_m_0_t_i q om p m b := by
  have e : ∀ b q, thermal.d_i_m_0_t_i q om p m b =
      n[energy q m,b] * ((p * 8 * PI2 : ℂ)⁻¹ * ((-(E[q,m]⁻¹ * ((TL q (om : ℂ) p E[q,m] ((-m * m : ℝ) : ℂ)) + (TL q ((-om : ℝ) : ℂ) p E[q,m] ((-m * m : ℝ) : ℂ))) * (1/4)) - E[q,m]⁻¹ * q * (p : ℂ)⁻¹ + E[q,m]⁻¹ * ((R0 (om : ℂ) p E[q,m] ((-m * m : ℝ) : ℂ)) * (TL q (om : ℂ) p E[q,m] ((-m * m : ℝ) : ℂ)) + (R0 ((-om : ℝ) : ℂ) p E[q,m] ((-m * m : ℝ) : ℂ)) * (TL q ((-om : ℝ) : ℂ) p E[q,m] ((-m * m : ℝ) : ℂ))) * (p * p * 8 : ℂ)⁻¹) * q))
      + n[q,b] * ((p * 8 * PI2 : ℂ)⁻¹ * ((p : ℂ)⁻¹ * q * (q * (q : ℂ)⁻¹) - ((R0 (om : ℂ) p (q : ℂ) ((-(-m * m) : ℝ) : ℂ)) * (TL q (om : ℂ) p (q : ℂ) ((-(-m * m) : ℝ) : ℂ)) + (R0 ((-om : ℝ) : ℂ) p (q : ℂ) ((-(-m * m) : ℝ) : ℂ)) * (TL q ((-om : ℝ) : ℂ) p (q : ℂ) ((-(-m * m) : ℝ) : ℂ))) * (p * p * 8 : ℂ)⁻¹ * (q * (q : ℂ)⁻¹))) := by
    intro b q
    simp only [thermal.d_i_m_0_t_i, tlog_eq, tlog_same_mass_eq, tlog_zero_mass_eq, tlog_l_eq, tlog_l_same_mass_eq, tlog_l_zero_mass_eq, tlog_t_eq, tlog_t_same_mass_eq,
      tlog_t_zero_mass_eq, r_0_eq, r_0_same_mass_eq, toC_real, toC_complex, ofR_real, ofR_complex]
    push_cast
    ring
  simp only [e]
  obtain ⟨_, _, _, _, _, _, _⟩ := LegG.massive ho p hm (-m * m)
  obtain ⟨_, _, _, _, _, _, _⟩ := LegG.massive (neg_ne_zero.2 ho) p hm (-m * m)
  obtain ⟨_, _, _, _, _, _, _⟩ := LegG.massless ho p (d := -(-m * m)) (pos_sum ho p (by nlinarith [mul_self_nonneg m]))
  obtain ⟨_, _, _, _, _, _, _⟩ := LegG.massless (neg_ne_zero.2 ho) p (d := -(-m * m)) (pos_sum (neg_ne_zero.2 ho) p (by nlinarith [mul_self_nonneg m]))
  have hi := Grow.energy_inv hm
  have he := Grow.energy m
  exact (((Dom.bose_massive h0 hm).mul (by grow))).add (Dom.bose_massless h0 (by grow))

theorem dom_d2_j_m_i (h0 : 0 < b0) (hm : m ≠ 0) : Dom b0 fun b q => ((thermal.d2_j_m_i q m b : ℝ) : ℂ) := by
  have e : ∀ b q, ((thermal.d2_j_m_i q m b : ℝ) : ℂ) =
      n[energy q m,b] * (E[q,m]⁻¹ * E[q,m]⁻¹ * E[q,m]⁻¹ * (8 * PI2 : ℂ)⁻¹)
      + ((b * bose_distribution_zero_chempot (energy q m) b * bose_distribution_zero_chempot (-energy q m) b : ℝ) : ℂ) * (-(E[q,m] * E[q,m]⁻¹ * E[q,m]⁻¹ * E[q,m]⁻¹ * (8 * PI2 : ℂ)⁻¹)) := by
    intro b q
    simp only [thermal.d2_j_m_i, tlog_eq, tlog_same_mass_eq, tlog_zero_mass_eq, tlog_l_eq, tlog_l_same_mass_eq, tlog_l_zero_mass_eq, tlog_t_eq, tlog_t_same_mass_eq,
      tlog_t_zero_mass_eq, r_0_eq, r_0_same_mass_eq, toC_real, toC_complex, ofR_real, ofR_complex]
    push_cast
    ring
  simp only [e]
  have hi := Grow.energy_inv hm
  have he := Grow.energy m
  exact (((Dom.bose_massive h0 hm).mul (by grow))).add ((Dom.bose_deriv h0 hm).mul (by grow))

/-! ### Zero spatial momentum -/

theorem Grow.invZ {e : ℝ → ℝ} {d : ℝ} (h : Away om 0 e d) (he : Measurable e) : Grow 0 fun q => (Qcd.R0 (om : ℂ) ((0 : ℝ) : ℂ) (e q) d)⁻¹ := by
  have := Grow.invP h he
  simpa using this

theorem dom_zm_i_m_0_i (h0 : 0 < b0) (ho : om ≠ 0) (hm : m ≠ 0) : Dom b0 fun b q => thermal.zero_momentum.i_m_0_i q om m b := by
  have e : ∀ b q, thermal.zero_momentum.i_m_0_i q om m b =
      n[energy q m,b] * ((4 * PI2 : ℂ)⁻¹ * ((q : ℂ) * q * E[q,m]⁻¹ * ((R0 (om : ℂ) ((0 : ℝ) : ℂ) E[q,m] ((-m * m : ℝ) : ℂ))⁻¹ + (R0 ((-om : ℝ) : ℂ) ((0 : ℝ) : ℂ) E[q,m] ((-m * m : ℝ) : ℂ))⁻¹)))
      + n[q,b] * ((4 * PI2 : ℂ)⁻¹ * ((q : ℂ) * ((R0 (om : ℂ) ((0 : ℝ) : ℂ) (q : ℂ) ((-(-m * m) : ℝ) : ℂ))⁻¹ + (R0 ((-om : ℝ) : ℂ) ((0 : ℝ) : ℂ) (q : ℂ) ((-(-m * m) : ℝ) : ℂ))⁻¹))) := by
    intro b q
    simp only [thermal.zero_momentum.i_m_0_i, thermal.zero_momentum.r_0, thermal.zero_momentum.r_0_same_mass, R0, toC_real, toC_complex, ofR_real, ofR_complex]
    push_cast
    ring
  simp only [e]
  have z10 := Grow.invZ (.massive ho 0 hm (-m * m)) (energy_meas m)
  have z11 := Grow.invZ (.massive (neg_ne_zero.2 ho) 0 hm (-m * m)) (energy_meas m)
  have z20 := Grow.invZ (.of_le ho 0 (fun _ _ => le_rfl) (pos_sum ho 0 (by nlinarith [mul_self_nonneg m] : 0 ≤ -(-m * m)))) measurable_id
  have z21 := Grow.invZ (.of_le (neg_ne_zero.2 ho) 0 (fun _ _ => le_rfl) (pos_sum (neg_ne_zero.2 ho) 0 (by nlinarith [mul_self_nonneg m] : 0 ≤ -(-m * m)))) measurable_id
  have hi := Grow.energy_inv hm
  have he := Grow.energy m
  exact (((Dom.bose_massive h0 hm).mul (by grow))).add (Dom.bose_massless h0 (by grow))

theorem dom_zm_i_m_m_i_same_mass (h0 : 0 < b0) (ho : om ≠ 0) (hm : m ≠ 0) : Dom b0 fun b q => thermal.zero_momentum.i_m_m_i_same_mass q om m b := by
  have e : ∀ b q, thermal.zero_momentum.i_m_m_i_same_mass q om m b =
      n[energy q m,b] * ((2 * PI2 : ℂ)⁻¹ * ((q : ℂ) * q * E[q,m]⁻¹ * ((R0 (om : ℂ) ((0 : ℝ) : ℂ) E[q,m] ((0 : ℝ) : ℂ))⁻¹ + (R0 ((-om : ℝ) : ℂ) ((0 : ℝ) : ℂ) E[q,m] ((0 : ℝ) : ℂ))⁻¹))) := by
    intro b q
    simp only [thermal.zero_momentum.i_m_m_i_same_mass, thermal.zero_momentum.r_0, thermal.zero_momentum.r_0_same_mass, R0, toC_real, toC_complex, ofR_real, ofR_complex]
    push_cast
    ring
  simp only [e]
  have z30 := Grow.invZ (.massive ho 0 hm 0) (energy_meas m)
  have z31 := Grow.invZ (.massive (neg_ne_zero.2 ho) 0 hm 0) (energy_meas m)
  have hi := Grow.energy_inv hm
  have he := Grow.energy m
  exact ((Dom.bose_massive h0 hm).mul (by grow))

theorem dom_zm_i_0_0_i (h0 : 0 < b0) (ho : om ≠ 0) : Dom b0 fun b q => thermal.zero_momentum.i_0_0_i q om b := by
  have e : ∀ b q, thermal.zero_momentum.i_0_0_i q om b =
      n[q,b] * ((2 * PI2 : ℂ)⁻¹ * ((q : ℂ) * ((R0 (om : ℂ) ((0 : ℝ) : ℂ) (q : ℂ) ((0 : ℝ) : ℂ))⁻¹ + (R0 ((-om : ℝ) : ℂ) ((0 : ℝ) : ℂ) (q : ℂ) ((0 : ℝ) : ℂ))⁻¹))) := by
    intro b q
    simp only [thermal.zero_momentum.i_0_0_i, thermal.zero_momentum.r_0, thermal.zero_momentum.r_0_same_mass, R0, toC_real, toC_complex, ofR_real, ofR_complex]
    push_cast
    ring
  simp only [e]
  have z40 := Grow.invZ (.of_le ho 0 (fun _ _ => le_rfl) (pos_sum ho 0 (le_refl 0))) measurable_id
  have z41 := Grow.invZ (.of_le (neg_ne_zero.2 ho) 0 (fun _ _ => le_rfl) (pos_sum (neg_ne_zero.2 ho) 0 (le_refl 0))) measurable_id
  exact (Dom.bose_massless h0 (by grow))

theorem dom_zm_i_m_0_l_i (h0 : 0 < b0) (ho : om ≠ 0) (hm : m ≠ 0) : Dom b0 fun b q => thermal.zero_momentum.i_m_0_l_i q om m b := by
  have e : ∀ b q, thermal.zero_momentum.i_m_0_l_i q om m b =
      n[energy q m,b] * ((12 * PI2 : ℂ)⁻¹ * ((q : ℂ) * q * q * q * E[q,m]⁻¹ * ((R0 (om : ℂ) ((0 : ℝ) : ℂ) E[q,m] ((-m * m : ℝ) : ℂ))⁻¹ + (R0 ((-om : ℝ) : ℂ) ((0 : ℝ) : ℂ) E[q,m] ((-m * m : ℝ) : ℂ))⁻¹)))
      + n[q,b] * ((12 * PI2 : ℂ)⁻¹ * ((q : ℂ) * q * q * ((R0 (om : ℂ) ((0 : ℝ) : ℂ) (q : ℂ) ((-(-m * m) : ℝ) : ℂ))⁻¹ + (R0 ((-om : ℝ) : ℂ) ((0 : ℝ) : ℂ) (q : ℂ) ((-(-m * m) : ℝ) : ℂ))⁻¹))) := by
    intro b q
    simp only [thermal.zero_momentum.i_m_0_l_i, thermal.zero_momentum.r_0, thermal.zero_momentum.r_0_same_mass, R0, toC_real, toC_complex, ofR_real, ofR_complex]
    push_cast
    ring
  simp only [e]
  have z10 := Grow.invZ (.massive ho 0 hm (-m * m)) (energy_meas m)
  have z11 := Grow.invZ (.massive (neg_ne_zero.2 ho) 0 hm (-m * m)) (energy_meas m)
  have z20 := Grow.invZ (.of_le ho 0 (fun _ _ => le_rfl) (pos_sum ho 0 (by nlinarith [mul_self_nonneg m] : 0 ≤ -(-m * m)))) measurable_id
  have z21 := Grow.invZ (.of_le (neg_ne_zero.2 ho) 0 (fun _ _ => le_rfl) (pos_sum (neg_ne_zero.2 ho) 0 (by nlinarith [mul_self_nonneg m] : 0 ≤ -(-m * m)))) measurable_id
  have hi := Grow.energy_inv hm
  have he := Grow.energy m
  exact (((Dom.bose_massive h0 hm).mul (by grow))).add (Dom.bose_massless h0 (by grow))

theorem dom_zm_i_m_m_l_i_same_mass (h0 : 0 < b0) (ho : om ≠ 0) (hm : m ≠ 0) : Dom b0 fun b q => thermal.zero_momentum.i_m_m_l_i_same_mass q om m b := by
  have e : ∀ b q, thermal.zero_momentum.i_m_m_l_i_same_mass q om m b =
      n[energy q m,b] * ((6 * PI2 : ℂ)⁻¹ * ((q : ℂ) * q * q * q * E[q,m]⁻¹ * ((R0 (om : ℂ) ((0 : ℝ) : ℂ) E[q,m] ((0 : ℝ) : ℂ))⁻¹ + (R0 ((-om : ℝ) : ℂ) ((0 : ℝ) : ℂ) E[q,m] ((0 : ℝ) : ℂ))⁻¹))) := by
    intro b q
    simp only [thermal.zero_momentum.i_m_m_l_i_same_mass, thermal.zero_momentum.r_0, thermal.zero_momentum.r_0_same_mass, R0, toC_real, toC_complex, ofR_real, ofR_complex]
    push_cast
    ring
  simp only [e]
  have z30 := Grow.invZ (.massive ho 0 hm 0) (energy_meas m)
  have z31 := Grow.invZ (.massive (neg_ne_zero.2 ho) 0 hm 0) (energy_meas m)
  have hi := Grow.energy_inv hm
  have he := Grow.energy m
  exact ((Dom.bose_massive h0 hm).mul (by grow))

theorem dom_zm_i_0_0_l_i (h0 : 0 < b0) (ho : om ≠ 0) : Dom b0 fun b q => thermal.zero_momentum.i_0_0_l_i q om b := by
  have e : ∀ b q, thermal.zero_momentum.i_0_0_l_i q om b =
      n[q,b] * ((6 * PI2 : ℂ)⁻¹ * ((q : ℂ) * q * q * ((R0 (om : ℂ) ((0 : ℝ) : ℂ) (q : ℂ) ((0 : ℝ) : ℂ))⁻¹ + (R0 ((-om : ℝ) : ℂ) ((0 : ℝ) : ℂ) (q : ℂ) ((0 : ℝ) : ℂ))⁻¹))) := by
    intro b q
    simp only [thermal.zero_momentum.i_0_0_l_i, thermal.zero_momentum.r_0, thermal.zero_momentum.r_0_same_mass, R0, toC_real, toC_complex, ofR_real, ofR_complex]
    push_cast
    ring
  simp only [e]
  have z40 := Grow.invZ (.of_le ho 0 (fun _ _ => le_rfl) (pos_sum ho 0 (le_refl 0))) measurable_id
  have z41 := Grow.invZ (.of_le (neg_ne_zero.2 ho) 0 (fun _ _ => le_rfl) (pos_sum (neg_ne_zero.2 ho) 0 (le_refl 0))) measurable_id
  exact (Dom.bose_massless h0 (by grow))

theorem dom_zm_d_i_m_m_i_same_mass (h0 : 0 < b0) (ho : om ≠ 0) (hm : m ≠ 0) : Dom b0 fun b q => thermal.zero_momentum.d_i_m_m_i_same_mass q om m b := by
  have e : ∀ b q, thermal.zero_momentum.d_i_m_m_i_same_mass q om m b =
      n[energy q m,b] * (-((8 * PI2 : ℂ)⁻¹ * (E[q,m]⁻¹ * ((R0 (om : ℂ) ((0 : ℝ) : ℂ) E[q,m] ((0 : ℝ) : ℂ))⁻¹ + (R0 ((-om : ℝ) : ℂ) ((0 : ℝ) : ℂ) E[q,m] ((0 : ℝ) : ℂ))⁻¹)))) := by
    intro b q
    simp only [thermal.zero_momentum.d_i_m_m_i_same_mass, thermal.zero_momentum.r_0, thermal.zero_momentum.r_0_same_mass, R0, toC_real, toC_complex, ofR_real, ofR_complex]
    push_cast
    ring
  simp only [e]
  have z30 := Grow.invZ (.massive ho 0 hm 0) (energy_meas m)
  have z31 := Grow.invZ (.massive (neg_ne_zero.2 ho) 0 hm 0) (energy_meas m)
  have hi := Grow.energy_inv hm
  have he := Grow.energy m
  exact ((Dom.bose_massive h0 hm).mul (by grow))

theorem dom_zm_d_i_m_0_i (h0 : 0 < b0) (ho : om ≠ 0) (hm : m ≠ 0) : Dom b0 fun b q => thermal.zero_momentum.d_i_m_0_i q om m b := by
  have e : ∀ b q, thermal.zero_momentum.d_i_m_0_i q om m b =
      n[energy q m,b] * ((8 * PI2 : ℂ)⁻¹ * (-(E[q,m]⁻¹ * ((R0 (om : ℂ) ((0 : ℝ) : ℂ) E[q,m] ((-m * m : ℝ) : ℂ))⁻¹ + (R0 ((-om : ℝ) : ℂ) ((0 : ℝ) : ℂ) E[q,m] ((-m * m : ℝ) : ℂ))⁻¹)) + (q : ℂ) * E[q,m]⁻¹ * ((R0 (om : ℂ) ((0 : ℝ) : ℂ) E[q,m] ((-m * m : ℝ) : ℂ))⁻¹ * (R0 (om : ℂ) ((0 : ℝ) : ℂ) E[q,m] ((-m * m : ℝ) : ℂ))⁻¹ + (R0 ((-om : ℝ) : ℂ) ((0 : ℝ) : ℂ) E[q,m] ((-m * m : ℝ) : ℂ))⁻¹ * (R0 ((-om : ℝ) : ℂ) ((0 : ℝ) : ℂ) E[q,m] ((-m * m : ℝ) : ℂ))⁻¹) * q * 2))
      + n[q,b] * (-((8 * PI2 : ℂ)⁻¹ * ((q : ℂ) * 2 * ((R0 (om : ℂ) ((0 : ℝ) : ℂ) (q : ℂ) ((-(-m * m) : ℝ) : ℂ))⁻¹ * (R0 (om : ℂ) ((0 : ℝ) : ℂ) (q : ℂ) ((-(-m * m) : ℝ) : ℂ))⁻¹ + (R0 ((-om : ℝ) : ℂ) ((0 : ℝ) : ℂ) (q : ℂ) ((-(-m * m) : ℝ) : ℂ))⁻¹ * (R0 ((-om : ℝ) : ℂ) ((0 : ℝ) : ℂ) (q : ℂ) ((-(-m * m) : ℝ) : ℂ))⁻¹)))) := by
    intro b q
    simp only [thermal.zero_momentum.d_i_m_0_i, thermal.zero_momentum.r_0, thermal.zero_momentum.r_0_same_mass, R0, toC_real, toC_complex, ofR_real, ofR_complex]
    push_cast
    ring
  simp only [e]
  have z10 := Grow.invZ (.massive ho 0 hm (-m * m)) (energy_meas m)
  have z11 := Grow.invZ (.massive (neg_ne_zero.2 ho) 0 hm (-m * m)) (energy_meas m)
  have z20 := Grow.invZ (.of_le ho 0 (fun _ _ => le_rfl) (pos_sum ho 0 (by nlinarith [mul_self_nonneg m] : 0 ≤ -(-m * m)))) measurable_id
  have z21 := Grow.invZ (.of_le (neg_ne_zero.2 ho) 0 (fun _ _ => le_rfl) (pos_sum (neg_ne_zero.2 ho) 0 (by nlinarith [mul_self_nonneg m] : 0 ≤ -(-m * m)))) measurable_id
  have hi := Grow.energy_inv hm
  have he := Grow.energy m
  exact (((Dom.bose_massive h0 hm).mul (by grow))).add (Dom.bose_massless h0 (by grow))

theorem dom_zm_d_i_m_m_l_i_same_mass (h0 : 0 < b0) (ho : om ≠ 0) (hm : m ≠ 0) : Dom b0 fun b q => thermal.zero_momentum.d_i_m_m_l_i_same_mass q om m b := by
  have e : ∀ b q, thermal.zero_momentum.d_i_m_m_l_i_same_mass q om m b =
      n[energy q m,b] * (-((8 * PI2 : ℂ)⁻¹ * (E[q,m]⁻¹ * ((R0 (om : ℂ) ((0 : ℝ) : ℂ) E[q,m] ((0 : ℝ) : ℂ))⁻¹ + (R0 ((-om : ℝ) : ℂ) ((0 : ℝ) : ℂ) E[q,m] ((0 : ℝ) : ℂ))⁻¹) * (q * q)))) := by
    intro b q
    simp only [thermal.zero_momentum.d_i_m_m_l_i_same_mass, thermal.zero_momentum.r_0, thermal.zero_momentum.r_0_same_mass, R0, toC_real, toC_complex, ofR_real, ofR_complex]
    push_cast
    ring
  simp only [e]
  have z30 := Grow.invZ (.massive ho 0 hm 0) (energy_meas m)
  have z31 := Grow.invZ (.massive (neg_ne_zero.2 ho) 0 hm 0) (energy_meas m)
  have hi := Grow.energy_inv hm
  have he := Grow.energy m
  exact ((Dom.bose_massive h0 hm).mul (by grow))

theorem dom_zm_d_i_m_0_l_i (h0 : 0 < b0) (ho : om ≠ 0) (hm : m ≠ 0) : Dom b0 fun b q => thermal.zero_momentum.d_i_m_0_l_i q om m b := by
  have e : ∀ b q, thermal.zero_momentum.d_i_m_0_l_i q om m b =
      n[energy q m,b] * ((8 * PI2 : ℂ)⁻¹ * ((-(E[q,m]⁻¹ * ((R0 (om : ℂ) ((0 : ℝ) : ℂ) E[q,m] ((-m * m : ℝ) : ℂ))⁻¹ + (R0 ((-om : ℝ) : ℂ) ((0 : ℝ) : ℂ) E[q,m] ((-m * m : ℝ) : ℂ))⁻¹)) + (q : ℂ) * E[q,m]⁻¹ * ((R0 (om : ℂ) ((0 : ℝ) : ℂ) E[q,m] ((-m * m : ℝ) : ℂ))⁻¹ * (R0 (om : ℂ) ((0 : ℝ) : ℂ) E[q,m] ((-m * m : ℝ) : ℂ))⁻¹ + (R0 ((-om : ℝ) : ℂ) ((0 : ℝ) : ℂ) E[q,m] ((-m * m : ℝ) : ℂ))⁻¹ * (R0 ((-om : ℝ) : ℂ) ((0 : ℝ) : ℂ) E[q,m] ((-m * m : ℝ) : ℂ))⁻¹) * q * (2 / 3)) * (q * q)))
      + n[q,b] * (-((8 * PI2 : ℂ)⁻¹ * ((q : ℂ) * (2 / 3) * ((R0 (om : ℂ) ((0 : ℝ) : ℂ) (q : ℂ) ((-(-m * m) : ℝ) : ℂ))⁻¹ * (R0 (om : ℂ) ((0 : ℝ) : ℂ) (q : ℂ) ((-(-m * m) : ℝ) : ℂ))⁻¹ + (R0 ((-om : ℝ) : ℂ) ((0 : ℝ) : ℂ) (q : ℂ) ((-(-m * m) : ℝ) : ℂ))⁻¹ * (R0 ((-om : ℝ) : ℂ) ((0 : ℝ) : ℂ) (q : ℂ) ((-(-m * m) : ℝ) : ℂ))⁻¹) * (q * q)))) := by
    intro b q
    simp only [thermal.zero_momentum.d_i_m_0_l_i, thermal.zero_momentum.r_0, thermal.zero_momentum.r_0_same_mass, R0, toC_real, toC_complex, ofR_real, ofR_complex]
    push_cast
    ring
  simp only [e]
  have z10 := Grow.invZ (.massive ho 0 hm (-m * m)) (energy_meas m)
  have z11 := Grow.invZ (.massive (neg_ne_zero.2 ho) 0 hm (-m * m)) (energy_meas m)
  have z20 := Grow.invZ (.of_le ho 0 (fun _ _ => le_rfl) (pos_sum ho 0 (by nlinarith [mul_self_nonneg m] : 0 ≤ -(-m * m)))) measurable_id
  have z21 := Grow.invZ (.of_le (neg_ne_zero.2 ho) 0 (fun _ _ => le_rfl) (pos_sum (neg_ne_zero.2 ho) 0 (by nlinarith [mul_self_nonneg m] : 0 ≤ -(-m * m)))) measurable_id
  have hi := Grow.energy_inv hm
  have he := Grow.energy m
  exact (((Dom.bose_massive h0 hm).mul (by grow))).add (Dom.bose_massless h0 (by grow))

end Qcd
