import Verif.Lemmas.HtlTadpole

/-! # The one-loop integrals of the gluon loop at high temperature

Leading behaviour, proportional to the square of the temperature, of each integral from which the gluon polarization is built. The
explicit forms of the integrands are those of `Verif/Lemmas/DominationParts.lean`. -/

set_option linter.unusedSimpArgs false

namespace Qcd
open MeasureTheory Filter Topology Set

local notation "E[" q "," m "]" => ((energy (q : ℝ) (m : ℝ) : ℝ) : ℂ)
local notation "n[" x "," b "]" => ((bose_distribution_zero_chempot (x : ℝ) (b : ℝ) : ℝ) : ℂ)

variable {om p m : ℝ}

theorem hot_i_m_0_i (ho : om ≠ 0) (hp : p ≠ 0) (hm : m ≠ 0) : Hot (fun b q => thermal.i_m_0_i q om p m b) (0) := by
  have e : ∀ b q, thermal.i_m_0_i q om p m b =
      n[energy q m,b] * ((p * 16 * PI2 : ℂ)⁻¹ * ((q : ℂ) * E[q,m]⁻¹ * ((TL q (om : ℂ) p E[q,m] ((-m * m : ℝ) : ℂ)) + (TL q ((-om : ℝ) : ℂ) p E[q,m] ((-m * m : ℝ) : ℂ)))))
      + n[q,b] * ((p * 16 * PI2 : ℂ)⁻¹ * ((TL q (om : ℂ) p (q : ℂ) ((-(-m * m) : ℝ) : ℂ)) + (TL q ((-om : ℝ) : ℂ) p (q : ℂ) ((-(-m * m) : ℝ) : ℂ)))) := by
    intro b q
    simp only [thermal.i_m_0_i, tlog_eq, tlog_same_mass_eq, tlog_zero_mass_eq, tlog_l_eq, tlog_l_same_mass_eq, tlog_l_zero_mass_eq, tlog_t_eq, tlog_t_same_mass_eq,
      tlog_t_zero_mass_eq, r_0_eq, r_0_same_mass_eq, toC_real, toC_complex, ofR_real, ofR_complex]
    push_cast
    ring
  have hM := Line.massive m
  have h0 := Line.massless
  have ho2 := neg_ne_zero.2 ho
  have hp2 : (p : ℂ) ≠ 0 := Complex.ofReal_ne_zero.2 hp
  have ho3 : (om : ℂ) ≠ 0 := Complex.ofReal_ne_zero.2 ho
  simp only [e]
  have l1 : Tendsto (fun q : ℝ => ((p * 16 * PI2 : ℂ)⁻¹ * ((q : ℂ) * E[q,m]⁻¹ * ((TL q (om : ℂ) p E[q,m] ((-m * m : ℝ) : ℂ)) + (TL q ((-om : ℝ) : ℂ) p E[q,m] ((-m * m : ℝ) : ℂ))))) / (q : ℂ)) atTop (𝓝 (0)) := by
    have key := (((hM.nu.mul (hM.tlSum ho hp (-m * m))).mul invq_tendsto).const_mul (p * 16 * PI2 : ℂ)⁻¹)
    refine (key.congr' ?_).trans (le_of_eq (by simp))
    filter_upwards [eventually_gt_atTop 0] with q hq
    have hq : (q : ℂ) ≠ 0 := Complex.ofReal_ne_zero.2 hq.ne'
    ring
  have l2 : Tendsto (fun q : ℝ => ((p * 16 * PI2 : ℂ)⁻¹ * ((TL q (om : ℂ) p (q : ℂ) ((-(-m * m) : ℝ) : ℂ)) + (TL q ((-om : ℝ) : ℂ) p (q : ℂ) ((-(-m * m) : ℝ) : ℂ)))) / (q : ℂ)) atTop (𝓝 (0)) := by
    have key := (((h0.tlSum ho hp (-(-m * m))).mul invq_tendsto).const_mul (p * 16 * PI2 : ℂ)⁻¹)
    refine (key.congr' ?_).trans (le_of_eq (by simp))
    filter_upwards [eventually_gt_atTop 0] with q hq
    have hq : (q : ℂ) ≠ 0 := Complex.ofReal_ne_zero.2 hq.ne'
    ring
  obtain ⟨_, _, _, _, _, _, _⟩ := LegG.massive ho p hm (-m * m)
  obtain ⟨_, _, _, _, _, _, _⟩ := LegG.massive (neg_ne_zero.2 ho) p hm (-m * m)
  obtain ⟨_, _, _, _, _, _, _⟩ := LegG.massless ho p (d := -(-m * m)) (pos_sum ho p (by nlinarith [mul_self_nonneg m]))
  obtain ⟨_, _, _, _, _, _, _⟩ := LegG.massless (neg_ne_zero.2 ho) p (d := -(-m * m)) (pos_sum (neg_ne_zero.2 ho) p (by nlinarith [mul_self_nonneg m]))
  have hi := Grow.energy_inv hm
  have he := Grow.energy m
  refine Hot.congr (Hot.add (Hot.massive hm (by grow) l1) (Hot.massless (by grow) l2)) (fun _ _ _ _ => rfl) ?_
  simp

theorem hot_i_0_0_i (ho : om ≠ 0) (hp : p ≠ 0) : Hot (fun b q => thermal.i_0_0_i q om p b) (0) := by
  have e : ∀ b q, thermal.i_0_0_i q om p b =
      n[q,b] * ((p * 8 * PI2 : ℂ)⁻¹ * ((TL q (om : ℂ) p (q : ℂ) ((0 : ℝ) : ℂ)) + (TL q ((-om : ℝ) : ℂ) p (q : ℂ) ((0 : ℝ) : ℂ)))) := by
    intro b q
    simp only [thermal.i_0_0_i, tlog_eq, tlog_same_mass_eq, tlog_zero_mass_eq, tlog_l_eq, tlog_l_same_mass_eq, tlog_l_zero_mass_eq, tlog_t_eq, tlog_t_same_mass_eq,
      tlog_t_zero_mass_eq, r_0_eq, r_0_same_mass_eq, toC_real, toC_complex, ofR_real, ofR_complex]
    push_cast
    ring
  have h0 := Line.massless
  have ho2 := neg_ne_zero.2 ho
  have hp2 : (p : ℂ) ≠ 0 := Complex.ofReal_ne_zero.2 hp
  have ho3 : (om : ℂ) ≠ 0 := Complex.ofReal_ne_zero.2 ho
  simp only [e]
  have l2 : Tendsto (fun q : ℝ => ((p * 8 * PI2 : ℂ)⁻¹ * ((TL q (om : ℂ) p (q : ℂ) ((0 : ℝ) : ℂ)) + (TL q ((-om : ℝ) : ℂ) p (q : ℂ) ((0 : ℝ) : ℂ)))) / (q : ℂ)) atTop (𝓝 (0)) := by
    have key := (((h0.tlSum ho hp 0).mul invq_tendsto).const_mul (p * 8 * PI2 : ℂ)⁻¹)
    refine (key.congr' ?_).trans (le_of_eq (by simp))
    filter_upwards [eventually_gt_atTop 0] with q hq
    have hq : (q : ℂ) ≠ 0 := Complex.ofReal_ne_zero.2 hq.ne'
    ring
  obtain ⟨_, _, _, _, _, _, _⟩ := LegG.massless ho p (d := 0) (pos_sum ho p le_rfl)
  obtain ⟨_, _, _, _, _, _, _⟩ := LegG.massless (neg_ne_zero.2 ho) p (d := 0) (pos_sum (neg_ne_zero.2 ho) p le_rfl)
  refine Hot.congr (Hot.massless (by grow) l2) (fun _ _ _ _ => rfl) ?_
  simp

theorem hot_i_m_m_i_same_mass (ho : om ≠ 0) (hp : p ≠ 0) (hm : m ≠ 0) : Hot (fun b q => thermal.i_m_m_i_same_mass q om p m b) (0) := by
  have e : ∀ b q, thermal.i_m_m_i_same_mass q om p m b =
      n[energy q m,b] * ((p * 8 * PI2 : ℂ)⁻¹ * ((q : ℂ) * E[q,m]⁻¹ * ((TL q (om : ℂ) p E[q,m] ((0 : ℝ) : ℂ)) + (TL q ((-om : ℝ) : ℂ) p E[q,m] ((0 : ℝ) : ℂ))))) := by
    intro b q
    simp only [thermal.i_m_m_i_same_mass, tlog_eq, tlog_same_mass_eq, tlog_zero_mass_eq, tlog_l_eq, tlog_l_same_mass_eq, tlog_l_zero_mass_eq, tlog_t_eq, tlog_t_same_mass_eq,
      tlog_t_zero_mass_eq, r_0_eq, r_0_same_mass_eq, toC_real, toC_complex, ofR_real, ofR_complex]
    push_cast
    ring
  have hM := Line.massive m
  have h0 := Line.massless
  have ho2 := neg_ne_zero.2 ho
  have hp2 : (p : ℂ) ≠ 0 := Complex.ofReal_ne_zero.2 hp
  have ho3 : (om : ℂ) ≠ 0 := Complex.ofReal_ne_zero.2 ho
  simp only [e]
  have l1 : Tendsto (fun q : ℝ => ((p * 8 * PI2 : ℂ)⁻¹ * ((q : ℂ) * E[q,m]⁻¹ * ((TL q (om : ℂ) p E[q,m] ((0 : ℝ) : ℂ)) + (TL q ((-om : ℝ) : ℂ) p E[q,m] ((0 : ℝ) : ℂ))))) / (q : ℂ)) atTop (𝓝 (0)) := by
    have key := (((hM.nu.mul (hM.tlSum ho hp 0)).mul invq_tendsto).const_mul (p * 8 * PI2 : ℂ)⁻¹)
    refine (key.congr' ?_).trans (le_of_eq (by simp))
    filter_upwards [eventually_gt_atTop 0] with q hq
    have hq : (q : ℂ) ≠ 0 := Complex.ofReal_ne_zero.2 hq.ne'
    ring
  obtain ⟨_, _, _, _, _, _, _⟩ := LegG.massive ho p hm 0
  obtain ⟨_, _, _, _, _, _, _⟩ := LegG.massive (neg_ne_zero.2 ho) p hm 0
  have hi := Grow.energy_inv hm
  have he := Grow.energy m
  refine Hot.congr (Hot.massive hm (by grow) l1) (fun _ _ _ _ => rfl) ?_
  simp

theorem hot_i_0_0_l_i (ho : om ≠ 0) (hp : p ≠ 0) : Hot (fun b q => thermal.i_0_0_l_i q om p b) (((om : ℂ) * om * ((p : ℂ) * p * p * (om * om + p * p) * 32 * PI2)⁻¹) * ((om * om + p * p) * (8 * Complex.I * ((om + p * p * (om : ℂ)⁻¹)) * (p * htlK om p 1 0) - 8 * p * ((om * om + p * p) * (om : ℂ)⁻¹ ^ 2) - 8 * p)) * ((Real.pi ^ 2 / 6 : ℝ) : ℂ)) := by
  have e : ∀ b q, thermal.i_0_0_l_i q om p b =
      n[q,b] * (((om : ℂ) * om * ((p : ℂ) * p * p * (om * om + p * p) * 32 * PI2)⁻¹) * ((TL q (om : ℂ) p (q : ℂ) ((0 : ℝ) : ℂ)) * (PF (om : ℂ) p (q : ℂ) ((0 : ℝ) : ℂ)) * (PF (om : ℂ) p (q : ℂ) ((0 : ℝ) : ℂ)) + (TL q ((-om : ℝ) : ℂ) p (q : ℂ) ((0 : ℝ) : ℂ)) * (PF ((-om : ℝ) : ℂ) p (q : ℂ) ((0 : ℝ) : ℂ)) * (PF ((-om : ℝ) : ℂ) p (q : ℂ) ((0 : ℝ) : ℂ)) - q * ((p : ℂ) * 8 * (om * om + p * p)))) := by
    intro b q
    simp only [thermal.i_0_0_l_i, tlog_eq, tlog_same_mass_eq, tlog_zero_mass_eq, tlog_l_eq, tlog_l_same_mass_eq, tlog_l_zero_mass_eq, tlog_t_eq, tlog_t_same_mass_eq,
      tlog_t_zero_mass_eq, r_0_eq, r_0_same_mass_eq, toC_real, toC_complex, ofR_real, ofR_complex]
    push_cast
    ring
  have h0 := Line.massless
  have ho2 := neg_ne_zero.2 ho
  have hp2 : (p : ℂ) ≠ 0 := Complex.ofReal_ne_zero.2 hp
  have ho3 : (om : ℂ) ≠ 0 := Complex.ofReal_ne_zero.2 ho
  simp only [e]
  have l2 : Tendsto (fun q : ℝ => (((om : ℂ) * om * ((p : ℂ) * p * p * (om * om + p * p) * 32 * PI2)⁻¹) * ((TL q (om : ℂ) p (q : ℂ) ((0 : ℝ) : ℂ)) * (PF (om : ℂ) p (q : ℂ) ((0 : ℝ) : ℂ)) * (PF (om : ℂ) p (q : ℂ) ((0 : ℝ) : ℂ)) + (TL q ((-om : ℝ) : ℂ) p (q : ℂ) ((0 : ℝ) : ℂ)) * (PF ((-om : ℝ) : ℂ) p (q : ℂ) ((0 : ℝ) : ℂ)) * (PF ((-om : ℝ) : ℂ) p (q : ℂ) ((0 : ℝ) : ℂ)) - q * ((p : ℂ) * 8 * (om * om + p * p)))) / (q : ℂ)) atTop (𝓝 (((om : ℂ) * om * ((p : ℂ) * p * p * (om * om + p * p) * 32 * PI2)⁻¹) * ((om * om + p * p) * (8 * Complex.I * ((om + p * p * (om : ℂ)⁻¹)) * (p * htlK om p 1 0) - 8 * p * ((om * om + p * p) * (om : ℂ)⁻¹ ^ 2) - 8 * p)))) := by
    have key := (h0.legL ho hp 0).const_mul ((om : ℂ) * om * ((p : ℂ) * p * p * (om * om + p * p) * 32 * PI2)⁻¹)
    refine (key.congr' ?_).trans (le_of_eq (by push_cast; congr 1; ring))
    filter_upwards [eventually_gt_atTop 0] with q hq
    have hq : (q : ℂ) ≠ 0 := Complex.ofReal_ne_zero.2 hq.ne'
    push_cast
    ring
  obtain ⟨_, _, _, _, _, _, _⟩ := LegG.massless ho p (d := 0) (pos_sum ho p le_rfl)
  obtain ⟨_, _, _, _, _, _, _⟩ := LegG.massless (neg_ne_zero.2 ho) p (d := 0) (pos_sum (neg_ne_zero.2 ho) p le_rfl)
  refine Hot.congr (Hot.massless (by grow) l2) (fun _ _ _ _ => rfl) ?_
  ring

theorem hot_i_m_m_l_i_same_mass (ho : om ≠ 0) (hp : p ≠ 0) (hm : m ≠ 0) : Hot (fun b q => thermal.i_m_m_l_i_same_mass q om p m b) (((om : ℂ) * om * ((p : ℂ) * p * p * (om * om + p * p) * 32 * PI2)⁻¹) * ((om * om + p * p) * (8 * Complex.I * ((om + p * p * (om : ℂ)⁻¹)) * (p * htlK om p 1 0) - 8 * p * ((om * om + p * p) * (om : ℂ)⁻¹ ^ 2) - 8 * p)) * ((Real.pi ^ 2 / 6 : ℝ) : ℂ)) := by
  have e : ∀ b q, thermal.i_m_m_l_i_same_mass q om p m b =
      n[energy q m,b] * (((om : ℂ) * om * ((p : ℂ) * p * p * (om * om + p * p) * 32 * PI2)⁻¹) * ((q : ℂ) * E[q,m]⁻¹ * ((TL q (om : ℂ) p E[q,m] ((0 : ℝ) : ℂ)) * (PF (om : ℂ) p E[q,m] ((0 : ℝ) : ℂ)) * (PF (om : ℂ) p E[q,m] ((0 : ℝ) : ℂ)) + (TL q ((-om : ℝ) : ℂ) p E[q,m] ((0 : ℝ) : ℂ)) * (PF ((-om : ℝ) : ℂ) p E[q,m] ((0 : ℝ) : ℂ)) * (PF ((-om : ℝ) : ℂ) p E[q,m] ((0 : ℝ) : ℂ)) - q * ((p : ℂ) * 8 * (om * om + p * p))))) := by
    intro b q
    simp only [thermal.i_m_m_l_i_same_mass, tlog_eq, tlog_same_mass_eq, tlog_zero_mass_eq, tlog_l_eq, tlog_l_same_mass_eq, tlog_l_zero_mass_eq, tlog_t_eq, tlog_t_same_mass_eq,
      tlog_t_zero_mass_eq, r_0_eq, r_0_same_mass_eq, toC_real, toC_complex, ofR_real, ofR_complex]
    push_cast
    ring
  have hM := Line.massive m
  have h0 := Line.massless
  have ho2 := neg_ne_zero.2 ho
  have hp2 : (p : ℂ) ≠ 0 := Complex.ofReal_ne_zero.2 hp
  have ho3 : (om : ℂ) ≠ 0 := Complex.ofReal_ne_zero.2 ho
  simp only [e]
  have l1 : Tendsto (fun q : ℝ => (((om : ℂ) * om * ((p : ℂ) * p * p * (om * om + p * p) * 32 * PI2)⁻¹) * ((q : ℂ) * E[q,m]⁻¹ * ((TL q (om : ℂ) p E[q,m] ((0 : ℝ) : ℂ)) * (PF (om : ℂ) p E[q,m] ((0 : ℝ) : ℂ)) * (PF (om : ℂ) p E[q,m] ((0 : ℝ) : ℂ)) + (TL q ((-om : ℝ) : ℂ) p E[q,m] ((0 : ℝ) : ℂ)) * (PF ((-om : ℝ) : ℂ) p E[q,m] ((0 : ℝ) : ℂ)) * (PF ((-om : ℝ) : ℂ) p E[q,m] ((0 : ℝ) : ℂ)) - q * ((p : ℂ) * 8 * (om * om + p * p))))) / (q : ℂ)) atTop (𝓝 (((om : ℂ) * om * ((p : ℂ) * p * p * (om * om + p * p) * 32 * PI2)⁻¹) * ((om * om + p * p) * (8 * Complex.I * ((om + p * p * (om : ℂ)⁻¹)) * (p * htlK om p 1 0) - 8 * p * ((om * om + p * p) * (om : ℂ)⁻¹ ^ 2) - 8 * p)))) := by
    have key := (hM.nu.mul (hM.legL ho hp 0)).const_mul ((om : ℂ) * om * ((p : ℂ) * p * p * (om * om + p * p) * 32 * PI2)⁻¹)
    refine (key.congr' ?_).trans (le_of_eq (by push_cast; congr 1; ring))
    filter_upwards [eventually_gt_atTop 0] with q hq
    have hq : (q : ℂ) ≠ 0 := Complex.ofReal_ne_zero.2 hq.ne'
    push_cast
    ring
  obtain ⟨_, _, _, _, _, _, _⟩ := LegG.massive ho p hm 0
  obtain ⟨_, _, _, _, _, _, _⟩ := LegG.massive (neg_ne_zero.2 ho) p hm 0
  have hi := Grow.energy_inv hm
  have he := Grow.energy m
  refine Hot.congr (Hot.massive hm (by grow) l1) (fun _ _ _ _ => rfl) ?_
  ring

theorem hot_i_m_0_l_i (ho : om ≠ 0) (hp : p ≠ 0) (hm : m ≠ 0) : Hot (fun b q => thermal.i_m_0_l_i q om p m b) (((om : ℂ) * om * ((p : ℂ) * p * p * (om * om + p * p) * 32 * PI2)⁻¹) * ((om * om + p * p) * (8 * Complex.I * ((om + p * p * (om : ℂ)⁻¹)) * (p * htlK om p 1 0) - 8 * p * ((om * om + p * p) * (om : ℂ)⁻¹ ^ 2) - 8 * p)) * ((Real.pi ^ 2 / 6 : ℝ) : ℂ)) := by
  have e : ∀ b q, thermal.i_m_0_l_i q om p m b =
      n[energy q m,b] * (((om : ℂ) * om * ((p : ℂ) * p * p * (om * om + p * p) * 64 * PI2)⁻¹) * ((q : ℂ) * E[q,m]⁻¹ * ((TL q (om : ℂ) p E[q,m] ((-m * m : ℝ) : ℂ)) * (PF (om : ℂ) p E[q,m] ((-m * m : ℝ) : ℂ)) * (PF (om : ℂ) p E[q,m] ((-m * m : ℝ) : ℂ)) + (TL q ((-om : ℝ) : ℂ) p E[q,m] ((-m * m : ℝ) : ℂ)) * (PF ((-om : ℝ) : ℂ) p E[q,m] ((-m * m : ℝ) : ℂ)) * (PF ((-om : ℝ) : ℂ) p E[q,m] ((-m * m : ℝ) : ℂ)) - q * ((p : ℂ) * 8 * (om * om + p * p + -(m * m))))))
      + n[q,b] * (((om : ℂ) * om * ((p : ℂ) * p * p * (om * om + p * p) * 64 * PI2)⁻¹) * ((TL q (om : ℂ) p (q : ℂ) ((-(-m * m) : ℝ) : ℂ)) * (PF (om : ℂ) p (q : ℂ) ((-(-m * m) : ℝ) : ℂ)) * (PF (om : ℂ) p (q : ℂ) ((-(-m * m) : ℝ) : ℂ)) + (TL q ((-om : ℝ) : ℂ) p (q : ℂ) ((-(-m * m) : ℝ) : ℂ)) * (PF ((-om : ℝ) : ℂ) p (q : ℂ) ((-(-m * m) : ℝ) : ℂ)) * (PF ((-om : ℝ) : ℂ) p (q : ℂ) ((-(-m * m) : ℝ) : ℂ)) - q * ((p : ℂ) * 8 * (om * om + p * p + m * m)))) := by
    intro b q
    simp only [thermal.i_m_0_l_i, tlog_eq, tlog_same_mass_eq, tlog_zero_mass_eq, tlog_l_eq, tlog_l_same_mass_eq, tlog_l_zero_mass_eq, tlog_t_eq, tlog_t_same_mass_eq,
      tlog_t_zero_mass_eq, r_0_eq, r_0_same_mass_eq, toC_real, toC_complex, ofR_real, ofR_complex]
    push_cast
    ring
  have hM := Line.massive m
  have h0 := Line.massless
  have ho2 := neg_ne_zero.2 ho
  have hp2 : (p : ℂ) ≠ 0 := Complex.ofReal_ne_zero.2 hp
  have ho3 : (om : ℂ) ≠ 0 := Complex.ofReal_ne_zero.2 ho
  simp only [e]
  have l1 : Tendsto (fun q : ℝ => (((om : ℂ) * om * ((p : ℂ) * p * p * (om * om + p * p) * 64 * PI2)⁻¹) * ((q : ℂ) * E[q,m]⁻¹ * ((TL q (om : ℂ) p E[q,m] ((-m * m : ℝ) : ℂ)) * (PF (om : ℂ) p E[q,m] ((-m * m : ℝ) : ℂ)) * (PF (om : ℂ) p E[q,m] ((-m * m : ℝ) : ℂ)) + (TL q ((-om : ℝ) : ℂ) p E[q,m] ((-m * m : ℝ) : ℂ)) * (PF ((-om : ℝ) : ℂ) p E[q,m] ((-m * m : ℝ) : ℂ)) * (PF ((-om : ℝ) : ℂ) p E[q,m] ((-m * m : ℝ) : ℂ)) - q * ((p : ℂ) * 8 * (om * om + p * p + -(m * m)))))) / (q : ℂ)) atTop (𝓝 (((om : ℂ) * om * ((p : ℂ) * p * p * (om * om + p * p) * 64 * PI2)⁻¹) * ((om * om + p * p - m * m) * (8 * Complex.I * ((om + p * p * (om : ℂ)⁻¹)) * (p * htlK om p 1 0) - 8 * p * ((om * om + p * p) * (om : ℂ)⁻¹ ^ 2) - 8 * p)))) := by
    have key := (hM.nu.mul (hM.legL ho hp (-m * m))).const_mul ((om : ℂ) * om * ((p : ℂ) * p * p * (om * om + p * p) * 64 * PI2)⁻¹)
    refine (key.congr' ?_).trans (le_of_eq (by push_cast; congr 1; ring))
    filter_upwards [eventually_gt_atTop 0] with q hq
    have hq : (q : ℂ) ≠ 0 := Complex.ofReal_ne_zero.2 hq.ne'
    push_cast
    ring
  have l2 : Tendsto (fun q : ℝ => (((om : ℂ) * om * ((p : ℂ) * p * p * (om * om + p * p) * 64 * PI2)⁻¹) * ((TL q (om : ℂ) p (q : ℂ) ((-(-m * m) : ℝ) : ℂ)) * (PF (om : ℂ) p (q : ℂ) ((-(-m * m) : ℝ) : ℂ)) * (PF (om : ℂ) p (q : ℂ) ((-(-m * m) : ℝ) : ℂ)) + (TL q ((-om : ℝ) : ℂ) p (q : ℂ) ((-(-m * m) : ℝ) : ℂ)) * (PF ((-om : ℝ) : ℂ) p (q : ℂ) ((-(-m * m) : ℝ) : ℂ)) * (PF ((-om : ℝ) : ℂ) p (q : ℂ) ((-(-m * m) : ℝ) : ℂ)) - q * ((p : ℂ) * 8 * (om * om + p * p + m * m)))) / (q : ℂ)) atTop (𝓝 (((om : ℂ) * om * ((p : ℂ) * p * p * (om * om + p * p) * 64 * PI2)⁻¹) * ((om * om + p * p + m * m) * (8 * Complex.I * ((om + p * p * (om : ℂ)⁻¹)) * (p * htlK om p 1 0) - 8 * p * ((om * om + p * p) * (om : ℂ)⁻¹ ^ 2) - 8 * p)))) := by
    have key := (h0.legL ho hp (-(-m * m))).const_mul ((om : ℂ) * om * ((p : ℂ) * p * p * (om * om + p * p) * 64 * PI2)⁻¹)
    refine (key.congr' ?_).trans (le_of_eq (by push_cast; congr 1; ring))
    filter_upwards [eventually_gt_atTop 0] with q hq
    have hq : (q : ℂ) ≠ 0 := Complex.ofReal_ne_zero.2 hq.ne'
    push_cast
    ring
  obtain ⟨_, _, _, _, _, _, _⟩ := LegG.massive ho p hm (-m * m)
  obtain ⟨_, _, _, _, _, _, _⟩ := LegG.massive (neg_ne_zero.2 ho) p hm (-m * m)
  obtain ⟨_, _, _, _, _, _, _⟩ := LegG.massless ho p (d := -(-m * m)) (pos_sum ho p (by nlinarith [mul_self_nonneg m]))
  obtain ⟨_, _, _, _, _, _, _⟩ := LegG.massless (neg_ne_zero.2 ho) p (d := -(-m * m)) (pos_sum (neg_ne_zero.2 ho) p (by nlinarith [mul_self_nonneg m]))
  have hi := Grow.energy_inv hm
  have he := Grow.energy m
  refine Hot.congr (Hot.add (Hot.massive hm (by grow) l1) (Hot.massless (by grow) l2)) (fun _ _ _ _ => rfl) ?_
  simp only [mul_inv]
  ring

theorem hot_i_0_0_t_i (ho : om ≠ 0) (hp : p ≠ 0) : Hot (fun b q => thermal.i_0_0_t_i q om p b) ((-((p : ℂ) * p * p * 64 * PI2)⁻¹) * ((om * om + p * p) * (8 * Complex.I * om * (p * htlK om p 1 0) - 16 * p)) * ((Real.pi ^ 2 / 6 : ℝ) : ℂ)) := by
  have e : ∀ b q, thermal.i_0_0_t_i q om p b =
      n[q,b] * ((-((p : ℂ) * p * p * 64 * PI2)⁻¹) * ((((R0 (om : ℂ) p (q : ℂ) ((0 : ℝ) : ℂ)) + q * 2 * p) * ((R0 (om : ℂ) p (q : ℂ) ((0 : ℝ) : ℂ)) - q * 2 * p) * (TL q (om : ℂ) p (q : ℂ) ((0 : ℝ) : ℂ))) + (((R0 ((-om : ℝ) : ℂ) p (q : ℂ) ((0 : ℝ) : ℂ)) + q * 2 * p) * ((R0 ((-om : ℝ) : ℂ) p (q : ℂ) ((0 : ℝ) : ℂ)) - q * 2 * p) * (TL q ((-om : ℝ) : ℂ) p (q : ℂ) ((0 : ℝ) : ℂ))) - q * ((p : ℂ) * 8 * (om * om + p * p)))) := by
    intro b q
    simp only [thermal.i_0_0_t_i, tlog_eq, tlog_same_mass_eq, tlog_zero_mass_eq, tlog_l_eq, tlog_l_same_mass_eq, tlog_l_zero_mass_eq, tlog_t_eq, tlog_t_same_mass_eq,
      tlog_t_zero_mass_eq, r_0_eq, r_0_same_mass_eq, toC_real, toC_complex, ofR_real, ofR_complex]
    push_cast
    ring
  have h0 := Line.massless
  have ho2 := neg_ne_zero.2 ho
  have hp2 : (p : ℂ) ≠ 0 := Complex.ofReal_ne_zero.2 hp
  have ho3 : (om : ℂ) ≠ 0 := Complex.ofReal_ne_zero.2 ho
  simp only [e]
  have l2 : Tendsto (fun q : ℝ => ((-((p : ℂ) * p * p * 64 * PI2)⁻¹) * ((((R0 (om : ℂ) p (q : ℂ) ((0 : ℝ) : ℂ)) + q * 2 * p) * ((R0 (om : ℂ) p (q : ℂ) ((0 : ℝ) : ℂ)) - q * 2 * p) * (TL q (om : ℂ) p (q : ℂ) ((0 : ℝ) : ℂ))) + (((R0 ((-om : ℝ) : ℂ) p (q : ℂ) ((0 : ℝ) : ℂ)) + q * 2 * p) * ((R0 ((-om : ℝ) : ℂ) p (q : ℂ) ((0 : ℝ) : ℂ)) - q * 2 * p) * (TL q ((-om : ℝ) : ℂ) p (q : ℂ) ((0 : ℝ) : ℂ))) - q * ((p : ℂ) * 8 * (om * om + p * p)))) / (q : ℂ)) atTop (𝓝 ((-((p : ℂ) * p * p * 64 * PI2)⁻¹) * ((om * om + p * p) * (8 * Complex.I * om * (p * htlK om p 1 0) - 16 * p)))) := by
    have key := (h0.legT ho hp 0).const_mul (-((p : ℂ) * p * p * 64 * PI2)⁻¹)
    refine (key.congr' ?_).trans (le_of_eq (by push_cast; congr 1; ring))
    filter_upwards [eventually_gt_atTop 0] with q hq
    have hq : (q : ℂ) ≠ 0 := Complex.ofReal_ne_zero.2 hq.ne'
    push_cast
    ring
  obtain ⟨_, _, _, _, _, _, _⟩ := LegG.massless ho p (d := 0) (pos_sum ho p le_rfl)
  obtain ⟨_, _, _, _, _, _, _⟩ := LegG.massless (neg_ne_zero.2 ho) p (d := 0) (pos_sum (neg_ne_zero.2 ho) p le_rfl)
  refine Hot.congr (Hot.massless (by grow) l2) (fun _ _ _ _ => rfl) ?_
  ring

theorem hot_i_m_m_t_i_same_mass (ho : om ≠ 0) (hp : p ≠ 0) (hm : m ≠ 0) : Hot (fun b q => thermal.i_m_m_t_i_same_mass q om p m b) ((-((p : ℂ) * p * p * 64 * PI2)⁻¹) * ((om * om + p * p) * (8 * Complex.I * om * (p * htlK om p 1 0) - 16 * p)) * ((Real.pi ^ 2 / 6 : ℝ) : ℂ)) := by
  have e : ∀ b q, thermal.i_m_m_t_i_same_mass q om p m b =
      n[energy q m,b] * ((-((p : ℂ) * p * p * 64 * PI2)⁻¹) * ((q : ℂ) * E[q,m]⁻¹ * ((((R0 (om : ℂ) p E[q,m] ((0 : ℝ) : ℂ)) + q * 2 * p) * ((R0 (om : ℂ) p E[q,m] ((0 : ℝ) : ℂ)) - q * 2 * p) * (TL q (om : ℂ) p E[q,m] ((0 : ℝ) : ℂ))) + (((R0 ((-om : ℝ) : ℂ) p E[q,m] ((0 : ℝ) : ℂ)) + q * 2 * p) * ((R0 ((-om : ℝ) : ℂ) p E[q,m] ((0 : ℝ) : ℂ)) - q * 2 * p) * (TL q ((-om : ℝ) : ℂ) p E[q,m] ((0 : ℝ) : ℂ))) - q * ((p : ℂ) * 8 * (om * om + p * p))))) := by
    intro b q
    simp only [thermal.i_m_m_t_i_same_mass, tlog_eq, tlog_same_mass_eq, tlog_zero_mass_eq, tlog_l_eq, tlog_l_same_mass_eq, tlog_l_zero_mass_eq, tlog_t_eq, tlog_t_same_mass_eq,
      tlog_t_zero_mass_eq, r_0_eq, r_0_same_mass_eq, toC_real, toC_complex, ofR_real, ofR_complex]
    push_cast
    ring
  have hM := Line.massive m
  have h0 := Line.massless
  have ho2 := neg_ne_zero.2 ho
  have hp2 : (p : ℂ) ≠ 0 := Complex.ofReal_ne_zero.2 hp
  have ho3 : (om : ℂ) ≠ 0 := Complex.ofReal_ne_zero.2 ho
  simp only [e]
  have l1 : Tendsto (fun q : ℝ => ((-((p : ℂ) * p * p * 64 * PI2)⁻¹) * ((q : ℂ) * E[q,m]⁻¹ * ((((R0 (om : ℂ) p E[q,m] ((0 : ℝ) : ℂ)) + q * 2 * p) * ((R0 (om : ℂ) p E[q,m] ((0 : ℝ) : ℂ)) - q * 2 * p) * (TL q (om : ℂ) p E[q,m] ((0 : ℝ) : ℂ))) + (((R0 ((-om : ℝ) : ℂ) p E[q,m] ((0 : ℝ) : ℂ)) + q * 2 * p) * ((R0 ((-om : ℝ) : ℂ) p E[q,m] ((0 : ℝ) : ℂ)) - q * 2 * p) * (TL q ((-om : ℝ) : ℂ) p E[q,m] ((0 : ℝ) : ℂ))) - q * ((p : ℂ) * 8 * (om * om + p * p))))) / (q : ℂ)) atTop (𝓝 ((-((p : ℂ) * p * p * 64 * PI2)⁻¹) * ((om * om + p * p) * (8 * Complex.I * om * (p * htlK om p 1 0) - 16 * p)))) := by
    have key := (hM.nu.mul (hM.legT ho hp 0)).const_mul (-((p : ℂ) * p * p * 64 * PI2)⁻¹)
    refine (key.congr' ?_).trans (le_of_eq (by push_cast; congr 1; ring))
    filter_upwards [eventually_gt_atTop 0] with q hq
    have hq : (q : ℂ) ≠ 0 := Complex.ofReal_ne_zero.2 hq.ne'
    push_cast
    ring
  obtain ⟨_, _, _, _, _, _, _⟩ := LegG.massive ho p hm 0
  obtain ⟨_, _, _, _, _, _, _⟩ := LegG.massive (neg_ne_zero.2 ho) p hm 0
  have hi := Grow.energy_inv hm
  have he := Grow.energy m
  refine Hot.congr (Hot.massive hm (by grow) l1) (fun _ _ _ _ => rfl) ?_
  ring

theorem hot_i_m_0_t_i (ho : om ≠ 0) (hp : p ≠ 0) (hm : m ≠ 0) : Hot (fun b q => thermal.i_m_0_t_i q om p m b) ((-((p : ℂ) * p * p * 64 * PI2)⁻¹) * ((om * om + p * p) * (8 * Complex.I * om * (p * htlK om p 1 0) - 16 * p)) * ((Real.pi ^ 2 / 6 : ℝ) : ℂ)) := by
  have e : ∀ b q, thermal.i_m_0_t_i q om p m b =
      n[energy q m,b] * ((-((p : ℂ) * p * p * 128 * PI2)⁻¹) * ((q : ℂ) * E[q,m]⁻¹ * ((((R0 (om : ℂ) p E[q,m] ((-m * m : ℝ) : ℂ)) + q * 2 * p) * ((R0 (om : ℂ) p E[q,m] ((-m * m : ℝ) : ℂ)) - q * 2 * p) * (TL q (om : ℂ) p E[q,m] ((-m * m : ℝ) : ℂ))) + (((R0 ((-om : ℝ) : ℂ) p E[q,m] ((-m * m : ℝ) : ℂ)) + q * 2 * p) * ((R0 ((-om : ℝ) : ℂ) p E[q,m] ((-m * m : ℝ) : ℂ)) - q * 2 * p) * (TL q ((-om : ℝ) : ℂ) p E[q,m] ((-m * m : ℝ) : ℂ))) - q * ((p : ℂ) * 8 * (om * om + p * p + -(m * m))))))
      + n[q,b] * ((-((p : ℂ) * p * p * 128 * PI2)⁻¹) * ((((R0 (om : ℂ) p (q : ℂ) ((-(-m * m) : ℝ) : ℂ)) + q * 2 * p) * ((R0 (om : ℂ) p (q : ℂ) ((-(-m * m) : ℝ) : ℂ)) - q * 2 * p) * (TL q (om : ℂ) p (q : ℂ) ((-(-m * m) : ℝ) : ℂ))) + (((R0 ((-om : ℝ) : ℂ) p (q : ℂ) ((-(-m * m) : ℝ) : ℂ)) + q * 2 * p) * ((R0 ((-om : ℝ) : ℂ) p (q : ℂ) ((-(-m * m) : ℝ) : ℂ)) - q * 2 * p) * (TL q ((-om : ℝ) : ℂ) p (q : ℂ) ((-(-m * m) : ℝ) : ℂ))) - q * ((p : ℂ) * 8 * (om * om + p * p + m * m)))) := by
    intro b q
    simp only [thermal.i_m_0_t_i, tlog_eq, tlog_same_mass_eq, tlog_zero_mass_eq, tlog_l_eq, tlog_l_same_mass_eq, tlog_l_zero_mass_eq, tlog_t_eq, tlog_t_same_mass_eq,
      tlog_t_zero_mass_eq, r_0_eq, r_0_same_mass_eq, toC_real, toC_complex, ofR_real, ofR_complex]
    push_cast
    ring
  have hM := Line.massive m
  have h0 := Line.massless
  have ho2 := neg_ne_zero.2 ho
  have hp2 : (p : ℂ) ≠ 0 := Complex.ofReal_ne_zero.2 hp
  have ho3 : (om : ℂ) ≠ 0 := Complex.ofReal_ne_zero.2 ho
  simp only [e]
  have l1 : Tendsto (fun q : ℝ => ((-((p : ℂ) * p * p * 128 * PI2)⁻¹) * ((q : ℂ) * E[q,m]⁻¹ * ((((R0 (om : ℂ) p E[q,m] ((-m * m : ℝ) : ℂ)) + q * 2 * p) * ((R0 (om : ℂ) p E[q,m] ((-m * m : ℝ) : ℂ)) - q * 2 * p) * (TL q (om : ℂ) p E[q,m] ((-m * m : ℝ) : ℂ))) + (((R0 ((-om : ℝ) : ℂ) p E[q,m] ((-m * m : ℝ) : ℂ)) + q * 2 * p) * ((R0 ((-om : ℝ) : ℂ) p E[q,m] ((-m * m : ℝ) : ℂ)) - q * 2 * p) * (TL q ((-om : ℝ) : ℂ) p E[q,m] ((-m * m : ℝ) : ℂ))) - q * ((p : ℂ) * 8 * (om * om + p * p + -(m * m)))))) / (q : ℂ)) atTop (𝓝 ((-((p : ℂ) * p * p * 128 * PI2)⁻¹) * ((om * om + p * p - m * m) * (8 * Complex.I * om * (p * htlK om p 1 0) - 16 * p)))) := by
    have key := (hM.nu.mul (hM.legT ho hp (-m * m))).const_mul (-((p : ℂ) * p * p * 128 * PI2)⁻¹)
    refine (key.congr' ?_).trans (le_of_eq (by push_cast; congr 1; ring))
    filter_upwards [eventually_gt_atTop 0] with q hq
    have hq : (q : ℂ) ≠ 0 := Complex.ofReal_ne_zero.2 hq.ne'
    push_cast
    ring
  have l2 : Tendsto (fun q : ℝ => ((-((p : ℂ) * p * p * 128 * PI2)⁻¹) * ((((R0 (om : ℂ) p (q : ℂ) ((-(-m * m) : ℝ) : ℂ)) + q * 2 * p) * ((R0 (om : ℂ) p (q : ℂ) ((-(-m * m) : ℝ) : ℂ)) - q * 2 * p) * (TL q (om : ℂ) p (q : ℂ) ((-(-m * m) : ℝ) : ℂ))) + (((R0 ((-om : ℝ) : ℂ) p (q : ℂ) ((-(-m * m) : ℝ) : ℂ)) + q * 2 * p) * ((R0 ((-om : ℝ) : ℂ) p (q : ℂ) ((-(-m * m) : ℝ) : ℂ)) - q * 2 * p) * (TL q ((-om : ℝ) : ℂ) p (q : ℂ) ((-(-m * m) : ℝ) : ℂ))) - q * ((p : ℂ) * 8 * (om * om + p * p + m * m)))) / (q : ℂ)) atTop (𝓝 ((-((p : ℂ) * p * p * 128 * PI2)⁻¹) * ((om * om + p * p + m * m) * (8 * Complex.I * om * (p * htlK om p 1 0) - 16 * p)))) := by
    have key := (h0.legT ho hp (-(-m * m))).const_mul (-((p : ℂ) * p * p * 128 * PI2)⁻¹)
    refine (key.congr' ?_).trans (le_of_eq (by push_cast; congr 1; ring))
    filter_upwards [eventually_gt_atTop 0] with q hq
    have hq : (q : ℂ) ≠ 0 := Complex.ofReal_ne_zero.2 hq.ne'
    push_cast
    ring
  obtain ⟨_, _, _, _, _, _, _⟩ := LegG.massive ho p hm (-m * m)
  obtain ⟨_, _, _, _, _, _, _⟩ := LegG.massive (neg_ne_zero.2 ho) p hm (-m * m)
  obtain ⟨_, _, _, _, _, _, _⟩ := LegG.massless ho p (d := -(-m * m)) (pos_sum ho p (by nlinarith [mul_self_nonneg m]))
  obtain ⟨_, _, _, _, _, _, _⟩ := LegG.massless (neg_ne_zero.2 ho) p (d := -(-m * m)) (pos_sum (neg_ne_zero.2 ho) p (by nlinarith [mul_self_nonneg m]))
  have hi := Grow.energy_inv hm
  have he := Grow.energy m
  refine Hot.congr (Hot.add (Hot.massive hm (by grow) l1) (Hot.massless (by grow) l2)) (fun _ _ _ _ => rfl) ?_
  simp only [mul_inv]
  ring

theorem hot_j_m_i (hm : m ≠ 0) : Hot (fun b q => ((thermal.j_m_i q m b : ℝ) : ℂ)) (1 / 12) := by
  have e : ∀ b q, ((thermal.j_m_i q m b : ℝ) : ℂ) =
      n[energy q m,b] * ((2 * PI2 : ℂ)⁻¹ * ((q : ℂ) * q * E[q,m]⁻¹)) := by
    intro b q
    simp only [thermal.j_m_i, tlog_eq, tlog_same_mass_eq, tlog_zero_mass_eq, tlog_l_eq, tlog_l_same_mass_eq, tlog_l_zero_mass_eq, tlog_t_eq, tlog_t_same_mass_eq,
      tlog_t_zero_mass_eq, r_0_eq, r_0_same_mass_eq, toC_real, toC_complex, ofR_real, ofR_complex]
    push_cast
    ring
  have hM := Line.massive m
  have h0 := Line.massless
  simp only [e]
  have l1 : Tendsto (fun q : ℝ => ((2 * PI2 : ℂ)⁻¹ * ((q : ℂ) * q * E[q,m]⁻¹)) / (q : ℂ)) atTop (𝓝 ((2 * PI2 : ℂ)⁻¹)) := by
    have key := hM.nu.const_mul (2 * PI2 : ℂ)⁻¹
    refine (key.congr' ?_).trans (le_of_eq (by simp))
    filter_upwards [eventually_gt_atTop 0] with q hq
    have hq : (q : ℂ) ≠ 0 := Complex.ofReal_ne_zero.2 hq.ne'
    field_simp
  have hi := Grow.energy_inv hm
  have he := Grow.energy m
  refine Hot.congr (Hot.massive hm (by grow) l1) (fun _ _ _ _ => rfl) ?_
  rw [PI2]
  have := Real.pi_ne_zero
  push_cast
  field_simp
  norm_num

theorem hot_j_0_i : Hot (fun b q => ((thermal.j_0_i q b : ℝ) : ℂ)) (1 / 12) := by
  have e : ∀ b q, ((thermal.j_0_i q b : ℝ) : ℂ) =
      n[q,b] * ((q : ℂ) * (2 * PI2 : ℂ)⁻¹) := by
    intro b q
    simp only [thermal.j_0_i, tlog_eq, tlog_same_mass_eq, tlog_zero_mass_eq, tlog_l_eq, tlog_l_same_mass_eq, tlog_l_zero_mass_eq, tlog_t_eq, tlog_t_same_mass_eq,
      tlog_t_zero_mass_eq, r_0_eq, r_0_same_mass_eq, toC_real, toC_complex, ofR_real, ofR_complex]
    push_cast
    ring
  have h0 := Line.massless
  simp only [e]
  have l2 : Tendsto (fun q : ℝ => ((q : ℂ) * (2 * PI2 : ℂ)⁻¹) / (q : ℂ)) atTop (𝓝 ((2 * PI2 : ℂ)⁻¹)) := by
    have key := tendsto_const_nhds (x := (2 * PI2 : ℂ)⁻¹) (f := (atTop : Filter ℝ))
    refine (key.congr' ?_).trans (le_of_eq (by simp))
    filter_upwards [eventually_gt_atTop 0] with q hq
    have hq : (q : ℂ) ≠ 0 := Complex.ofReal_ne_zero.2 hq.ne'
    field_simp
  refine Hot.congr (Hot.massless (by grow) l2) (fun _ _ _ _ => rfl) ?_
  rw [PI2]
  have := Real.pi_ne_zero
  push_cast
  field_simp
  norm_num

theorem hot_d_j_m_i (hm : m ≠ 0) : Hot (fun b q => ((thermal.d_j_m_i q m b : ℝ) : ℂ)) (0) := by
  have e : ∀ b q, ((thermal.d_j_m_i q m b : ℝ) : ℂ) =
      n[energy q m,b] * (-(E[q,m]⁻¹ * (4 * PI2 : ℂ)⁻¹)) := by
    intro b q
    simp only [thermal.d_j_m_i, tlog_eq, tlog_same_mass_eq, tlog_zero_mass_eq, tlog_l_eq, tlog_l_same_mass_eq, tlog_l_zero_mass_eq, tlog_t_eq, tlog_t_same_mass_eq,
      tlog_t_zero_mass_eq, r_0_eq, r_0_same_mass_eq, toC_real, toC_complex, ofR_real, ofR_complex]
    push_cast
    ring
  have hM := Line.massive m
  have h0 := Line.massless
  simp only [e]
  have l1 : Tendsto (fun q : ℝ => (-(E[q,m]⁻¹ * (4 * PI2 : ℂ)⁻¹)) / (q : ℂ)) atTop (𝓝 (0)) := by
    have key := ((hM.nu.mul (invq_tendsto.pow 2)).const_mul (4 * PI2 : ℂ)⁻¹).neg
    refine (key.congr' ?_).trans (le_of_eq (by simp))
    filter_upwards [eventually_gt_atTop 0] with q hq
    have hq : (q : ℂ) ≠ 0 := Complex.ofReal_ne_zero.2 hq.ne'
    field_simp
  have hi := Grow.energy_inv hm
  have he := Grow.energy m
  refine Hot.congr (Hot.massive hm (by grow) l1) (fun _ _ _ _ => rfl) ?_
  simp

theorem hot_d_j_m_l_i (hm : m ≠ 0) : Hot (fun b q => ((thermal.d_j_m_l_i q m b : ℝ) : ℂ)) (1 / 24) := by
  have e : ∀ b q, ((thermal.d_j_m_l_i q m b : ℝ) : ℂ) =
      n[energy q m,b] * (E[q,m] * (4 * PI2 : ℂ)⁻¹) := by
    intro b q
    simp only [thermal.d_j_m_l_i, tlog_eq, tlog_same_mass_eq, tlog_zero_mass_eq, tlog_l_eq, tlog_l_same_mass_eq, tlog_l_zero_mass_eq, tlog_t_eq, tlog_t_same_mass_eq,
      tlog_t_zero_mass_eq, r_0_eq, r_0_same_mass_eq, toC_real, toC_complex, ofR_real, ofR_complex]
    push_cast
    ring
  have hM := Line.massive m
  have h0 := Line.massless
  simp only [e]
  have l1 : Tendsto (fun q : ℝ => (E[q,m] * (4 * PI2 : ℂ)⁻¹) / (q : ℂ)) atTop (𝓝 ((4 * PI2 : ℂ)⁻¹)) := by
    have key := hM.eta.mul_const (4 * PI2 : ℂ)⁻¹
    refine (key.congr' ?_).trans (le_of_eq (by simp))
    filter_upwards [eventually_gt_atTop 0] with q hq
    have hq : (q : ℂ) ≠ 0 := Complex.ofReal_ne_zero.2 hq.ne'
    ring
  have hi := Grow.energy_inv hm
  have he := Grow.energy m
  refine Hot.congr (Hot.massive hm (by grow) l1) (fun _ _ _ _ => rfl) ?_
  rw [PI2]
  have := Real.pi_ne_zero
  push_cast
  field_simp
  norm_num

theorem hot_d_j_m_t_i (hm : m ≠ 0) : Hot (fun b q => ((thermal.d_j_m_t_i q m b : ℝ) : ℂ)) (-(1 / 24)) := by
  have e : ∀ b q, ((thermal.d_j_m_t_i q m b : ℝ) : ℂ) =
      n[energy q m,b] * (-((q : ℂ) * q * E[q,m]⁻¹ * (4 * PI2 : ℂ)⁻¹)) := by
    intro b q
    simp only [thermal.d_j_m_t_i, tlog_eq, tlog_same_mass_eq, tlog_zero_mass_eq, tlog_l_eq, tlog_l_same_mass_eq, tlog_l_zero_mass_eq, tlog_t_eq, tlog_t_same_mass_eq,
      tlog_t_zero_mass_eq, r_0_eq, r_0_same_mass_eq, toC_real, toC_complex, ofR_real, ofR_complex]
    push_cast
    ring
  have hM := Line.massive m
  have h0 := Line.massless
  simp only [e]
  have l1 : Tendsto (fun q : ℝ => (-((q : ℂ) * q * E[q,m]⁻¹ * (4 * PI2 : ℂ)⁻¹)) / (q : ℂ)) atTop (𝓝 (-(4 * PI2 : ℂ)⁻¹)) := by
    have key := (hM.nu.const_mul (4 * PI2 : ℂ)⁻¹).neg
    refine (key.congr' ?_).trans (le_of_eq (by simp))
    filter_upwards [eventually_gt_atTop 0] with q hq
    have hq : (q : ℂ) ≠ 0 := Complex.ofReal_ne_zero.2 hq.ne'
    field_simp
  have hi := Grow.energy_inv hm
  have he := Grow.energy m
  refine Hot.congr (Hot.massive hm (by grow) l1) (fun _ _ _ _ => rfl) ?_
  rw [PI2]
  have := Real.pi_ne_zero
  push_cast
  field_simp
  norm_num

theorem hot_d2_j_m_t_i (hm : m ≠ 0) : Hot (fun b q => ((thermal.d2_j_m_t_i q m b : ℝ) : ℂ)) (0) := by
  have e : ∀ b q, ((thermal.d2_j_m_t_i q m b : ℝ) : ℂ) =
      n[energy q m,b] * (E[q,m]⁻¹ * (8 * PI2 : ℂ)⁻¹) := by
    intro b q
    simp only [thermal.d2_j_m_t_i, tlog_eq, tlog_same_mass_eq, tlog_zero_mass_eq, tlog_l_eq, tlog_l_same_mass_eq, tlog_l_zero_mass_eq, tlog_t_eq, tlog_t_same_mass_eq,
      tlog_t_zero_mass_eq, r_0_eq, r_0_same_mass_eq, toC_real, toC_complex, ofR_real, ofR_complex]
    push_cast
    ring
  have hM := Line.massive m
  have h0 := Line.massless
  simp only [e]
  have l1 : Tendsto (fun q : ℝ => (E[q,m]⁻¹ * (8 * PI2 : ℂ)⁻¹) / (q : ℂ)) atTop (𝓝 (0)) := by
    have key := (hM.nu.mul (invq_tendsto.pow 2)).mul_const (8 * PI2 : ℂ)⁻¹
    refine (key.congr' ?_).trans (le_of_eq (by simp))
    filter_upwards [eventually_gt_atTop 0] with q hq
    have hq : (q : ℂ) ≠ 0 := Complex.ofReal_ne_zero.2 hq.ne'
    field_simp
  have hi := Grow.energy_inv hm
  have he := Grow.energy m
  refine Hot.congr (Hot.massive hm (by grow) l1) (fun _ _ _ _ => rfl) ?_
  simp

theorem hot_d_i_m_m_i_same_mass (ho : om ≠ 0) (hp : p ≠ 0) (hm : m ≠ 0) : Hot (fun b q => thermal.d_i_m_m_i_same_mass q om p m b) (0) := by
  have e : ∀ b q, thermal.d_i_m_m_i_same_mass q om p m b =
      n[energy q m,b] * (-((16 * PI2 : ℂ)⁻¹ * (E[q,m]⁻¹ * ((((p : ℂ) * q * 2 + R0 (om : ℂ) p E[q,m] ((0 : ℝ) : ℂ))⁻¹) + ((-((p : ℂ) * q * 2) + R0 (om : ℂ) p E[q,m] ((0 : ℝ) : ℂ))⁻¹) + (((p : ℂ) * q * 2 + R0 ((-om : ℝ) : ℂ) p E[q,m] ((0 : ℝ) : ℂ))⁻¹) + ((-((p : ℂ) * q * 2) + R0 ((-om : ℝ) : ℂ) p E[q,m] ((0 : ℝ) : ℂ))⁻¹))))) := by
    intro b q
    simp only [thermal.d_i_m_m_i_same_mass, tlog_eq, tlog_same_mass_eq, tlog_zero_mass_eq, tlog_l_eq, tlog_l_same_mass_eq, tlog_l_zero_mass_eq, tlog_t_eq, tlog_t_same_mass_eq,
      tlog_t_zero_mass_eq, r_0_eq, r_0_same_mass_eq, toC_real, toC_complex, ofR_real, ofR_complex]
    push_cast
    ring
  have hM := Line.massive m
  have h0 := Line.massless
  have ho2 := neg_ne_zero.2 ho
  have hp2 : (p : ℂ) ≠ 0 := Complex.ofReal_ne_zero.2 hp
  have ho3 : (om : ℂ) ≠ 0 := Complex.ofReal_ne_zero.2 ho
  simp only [e]
  have l1 : Tendsto (fun q : ℝ => (-((16 * PI2 : ℂ)⁻¹ * (E[q,m]⁻¹ * ((((p : ℂ) * q * 2 + R0 (om : ℂ) p E[q,m] ((0 : ℝ) : ℂ))⁻¹) + ((-((p : ℂ) * q * 2) + R0 (om : ℂ) p E[q,m] ((0 : ℝ) : ℂ))⁻¹) + (((p : ℂ) * q * 2 + R0 ((-om : ℝ) : ℂ) p E[q,m] ((0 : ℝ) : ℂ))⁻¹) + ((-((p : ℂ) * q * 2) + R0 ((-om : ℝ) : ℂ) p E[q,m] ((0 : ℝ) : ℂ))⁻¹))))) / (q : ℂ)) atTop (𝓝 (0)) := by
    have key := (((hM.nu.mul (((hM.ip ho p 0).add (hM.im ho p 0)).add ((hM.ip ho2 p 0).add (hM.im ho2 p 0)))).mul (invq_tendsto.pow 3)).const_mul (-(16 * PI2 : ℂ)⁻¹))
    refine (key.congr' ?_).trans (le_of_eq (by simp only [mul_zero, zero_mul, neg_zero, add_zero, sub_zero, zero_pow two_ne_zero, zero_pow three_ne_zero]))
    filter_upwards [eventually_gt_atTop 0] with q hq
    have hq : (q : ℂ) ≠ 0 := Complex.ofReal_ne_zero.2 hq.ne'
    generalize ((p : ℂ) * q * 2 + R0 (om : ℂ) p ((energy q m : ℝ) : ℂ) ((0 : ℝ) : ℂ))⁻¹ = x1
    generalize (-((p : ℂ) * q * 2) + R0 (om : ℂ) p ((energy q m : ℝ) : ℂ) ((0 : ℝ) : ℂ))⁻¹ = x2
    generalize ((p : ℂ) * q * 2 + R0 ((-om : ℝ) : ℂ) p ((energy q m : ℝ) : ℂ) ((0 : ℝ) : ℂ))⁻¹ = x3
    generalize (-((p : ℂ) * q * 2) + R0 ((-om : ℝ) : ℂ) p ((energy q m : ℝ) : ℂ) ((0 : ℝ) : ℂ))⁻¹ = x4
    generalize ((energy q m : ℝ) : ℂ)⁻¹ = E
    field_simp
    ring
  obtain ⟨_, _, _, _, _, _, _⟩ := LegG.massive ho p hm 0
  obtain ⟨_, _, _, _, _, _, _⟩ := LegG.massive (neg_ne_zero.2 ho) p hm 0
  have hi := Grow.energy_inv hm
  have he := Grow.energy m
  refine Hot.congr (Hot.massive hm (by grow) l1) (fun _ _ _ _ => rfl) ?_
  simp

theorem hot_d_i_m_0_i (ho : om ≠ 0) (hp : p ≠ 0) (hm : m ≠ 0) : Hot (fun b q => thermal.d_i_m_0_i q om p m b) (0) := by
  have e : ∀ b q, thermal.d_i_m_0_i q om p m b =
      n[energy q m,b] * (-((16 * PI2 : ℂ)⁻¹ * (E[q,m]⁻¹ * ((((p : ℂ) * q * 2 + R0 (om : ℂ) p E[q,m] ((-m * m : ℝ) : ℂ))⁻¹) + ((-((p : ℂ) * q * 2) + R0 (om : ℂ) p E[q,m] ((-m * m : ℝ) : ℂ))⁻¹) + (((p : ℂ) * q * 2 + R0 ((-om : ℝ) : ℂ) p E[q,m] ((-m * m : ℝ) : ℂ))⁻¹) + ((-((p : ℂ) * q * 2) + R0 ((-om : ℝ) : ℂ) p E[q,m] ((-m * m : ℝ) : ℂ))⁻¹)) + E[q,m]⁻¹ * ((p : ℂ)⁻¹ * ((q : ℂ) * (((((p : ℂ) * q * 2 + R0 (om : ℂ) p E[q,m] ((-m * m : ℝ) : ℂ))⁻¹ - (-((p : ℂ) * q * 2) + R0 (om : ℂ) p E[q,m] ((-m * m : ℝ) : ℂ))⁻¹)) + ((((p : ℂ) * q * 2 + R0 ((-om : ℝ) : ℂ) p E[q,m] ((-m * m : ℝ) : ℂ))⁻¹ - (-((p : ℂ) * q * 2) + R0 ((-om : ℝ) : ℂ) p E[q,m] ((-m * m : ℝ) : ℂ))⁻¹))))))))
      + n[q,b] * ((16 * PI2 : ℂ)⁻¹ * ((p : ℂ)⁻¹ * ((q : ℂ) * (q : ℂ)⁻¹ * (((((p : ℂ) * q * 2 + R0 (om : ℂ) p (q : ℂ) ((-(-m * m) : ℝ) : ℂ))⁻¹ - (-((p : ℂ) * q * 2) + R0 (om : ℂ) p (q : ℂ) ((-(-m * m) : ℝ) : ℂ))⁻¹)) + ((((p : ℂ) * q * 2 + R0 ((-om : ℝ) : ℂ) p (q : ℂ) ((-(-m * m) : ℝ) : ℂ))⁻¹ - (-((p : ℂ) * q * 2) + R0 ((-om : ℝ) : ℂ) p (q : ℂ) ((-(-m * m) : ℝ) : ℂ))⁻¹)))))) := by
    intro b q
    simp only [thermal.d_i_m_0_i, tlog_eq, tlog_same_mass_eq, tlog_zero_mass_eq, tlog_l_eq, tlog_l_same_mass_eq, tlog_l_zero_mass_eq, tlog_t_eq, tlog_t_same_mass_eq,
      tlog_t_zero_mass_eq, r_0_eq, r_0_same_mass_eq, toC_real, toC_complex, ofR_real, ofR_complex]
    push_cast
    ring
  have hM := Line.massive m
  have h0 := Line.massless
  have ho2 := neg_ne_zero.2 ho
  have hp2 : (p : ℂ) ≠ 0 := Complex.ofReal_ne_zero.2 hp
  have ho3 : (om : ℂ) ≠ 0 := Complex.ofReal_ne_zero.2 ho
  simp only [e]
  have l1 : Tendsto (fun q : ℝ => (-((16 * PI2 : ℂ)⁻¹ * (E[q,m]⁻¹ * ((((p : ℂ) * q * 2 + R0 (om : ℂ) p E[q,m] ((-m * m : ℝ) : ℂ))⁻¹) + ((-((p : ℂ) * q * 2) + R0 (om : ℂ) p E[q,m] ((-m * m : ℝ) : ℂ))⁻¹) + (((p : ℂ) * q * 2 + R0 ((-om : ℝ) : ℂ) p E[q,m] ((-m * m : ℝ) : ℂ))⁻¹) + ((-((p : ℂ) * q * 2) + R0 ((-om : ℝ) : ℂ) p E[q,m] ((-m * m : ℝ) : ℂ))⁻¹)) + E[q,m]⁻¹ * ((p : ℂ)⁻¹ * ((q : ℂ) * (((((p : ℂ) * q * 2 + R0 (om : ℂ) p E[q,m] ((-m * m : ℝ) : ℂ))⁻¹ - (-((p : ℂ) * q * 2) + R0 (om : ℂ) p E[q,m] ((-m * m : ℝ) : ℂ))⁻¹)) + ((((p : ℂ) * q * 2 + R0 ((-om : ℝ) : ℂ) p E[q,m] ((-m * m : ℝ) : ℂ))⁻¹ - (-((p : ℂ) * q * 2) + R0 ((-om : ℝ) : ℂ) p E[q,m] ((-m * m : ℝ) : ℂ))⁻¹)))))))) / (q : ℂ)) atTop (𝓝 (0)) := by
    have key := (((hM.nu.mul (((hM.ip ho p (-m * m)).add (hM.im ho p (-m * m))).add ((hM.ip ho2 p (-m * m)).add (hM.im ho2 p (-m * m))))).mul (invq_tendsto.pow 3)).add (((hM.nu.mul (((hM.ip ho p (-m * m)).sub (hM.im ho p (-m * m))).add ((hM.ip ho2 p (-m * m)).sub (hM.im ho2 p (-m * m))))).mul (invq_tendsto.pow 2)).const_mul (p : ℂ)⁻¹)).const_mul (-(16 * PI2 : ℂ)⁻¹)
    refine (key.congr' ?_).trans (le_of_eq (by simp only [mul_zero, zero_mul, neg_zero, add_zero, sub_zero, zero_pow two_ne_zero, zero_pow three_ne_zero]))
    filter_upwards [eventually_gt_atTop 0] with q hq
    have hq : (q : ℂ) ≠ 0 := Complex.ofReal_ne_zero.2 hq.ne'
    generalize ((p : ℂ) * q * 2 + R0 (om : ℂ) p ((energy q m : ℝ) : ℂ) ((-m * m : ℝ) : ℂ))⁻¹ = x1
    generalize (-((p : ℂ) * q * 2) + R0 (om : ℂ) p ((energy q m : ℝ) : ℂ) ((-m * m : ℝ) : ℂ))⁻¹ = x2
    generalize ((p : ℂ) * q * 2 + R0 ((-om : ℝ) : ℂ) p ((energy q m : ℝ) : ℂ) ((-m * m : ℝ) : ℂ))⁻¹ = x3
    generalize (-((p : ℂ) * q * 2) + R0 ((-om : ℝ) : ℂ) p ((energy q m : ℝ) : ℂ) ((-m * m : ℝ) : ℂ))⁻¹ = x4
    generalize ((energy q m : ℝ) : ℂ)⁻¹ = E
    field_simp
    ring
  have l2 : Tendsto (fun q : ℝ => ((16 * PI2 : ℂ)⁻¹ * ((p : ℂ)⁻¹ * ((q : ℂ) * (q : ℂ)⁻¹ * (((((p : ℂ) * q * 2 + R0 (om : ℂ) p (q : ℂ) ((-(-m * m) : ℝ) : ℂ))⁻¹ - (-((p : ℂ) * q * 2) + R0 (om : ℂ) p (q : ℂ) ((-(-m * m) : ℝ) : ℂ))⁻¹)) + ((((p : ℂ) * q * 2 + R0 ((-om : ℝ) : ℂ) p (q : ℂ) ((-(-m * m) : ℝ) : ℂ))⁻¹ - (-((p : ℂ) * q * 2) + R0 ((-om : ℝ) : ℂ) p (q : ℂ) ((-(-m * m) : ℝ) : ℂ))⁻¹)))))) / (q : ℂ)) atTop (𝓝 (0)) := by
    have key := ((((((h0.ip ho p (-(-m * m))).sub (h0.im ho p (-(-m * m)))).add ((h0.ip ho2 p (-(-m * m))).sub (h0.im ho2 p (-(-m * m)))))).mul (invq_tendsto.pow 2)).const_mul (p : ℂ)⁻¹).const_mul (16 * PI2 : ℂ)⁻¹
    refine (key.congr' ?_).trans (le_of_eq (by simp only [mul_zero, zero_mul, neg_zero, add_zero, sub_zero, zero_pow two_ne_zero, zero_pow three_ne_zero]))
    filter_upwards [eventually_gt_atTop 0] with q hq
    have hq : (q : ℂ) ≠ 0 := Complex.ofReal_ne_zero.2 hq.ne'
    generalize ((p : ℂ) * q * 2 + R0 (om : ℂ) p (q : ℂ) ((-(-m * m) : ℝ) : ℂ))⁻¹ = x1
    generalize (-((p : ℂ) * q * 2) + R0 (om : ℂ) p (q : ℂ) ((-(-m * m) : ℝ) : ℂ))⁻¹ = x2
    generalize ((p : ℂ) * q * 2 + R0 ((-om : ℝ) : ℂ) p (q : ℂ) ((-(-m * m) : ℝ) : ℂ))⁻¹ = x3
    generalize (-((p : ℂ) * q * 2) + R0 ((-om : ℝ) : ℂ) p (q : ℂ) ((-(-m * m) : ℝ) : ℂ))⁻¹ = x4
    field_simp
    try ring
  obtain ⟨_, _, _, _, _, _, _⟩ := LegG.massive ho p hm (-m * m)
  obtain ⟨_, _, _, _, _, _, _⟩ := LegG.massive (neg_ne_zero.2 ho) p hm (-m * m)
  obtain ⟨_, _, _, _, _, _, _⟩ := LegG.massless ho p (d := -(-m * m)) (pos_sum ho p (by nlinarith [mul_self_nonneg m]))
  obtain ⟨_, _, _, _, _, _, _⟩ := LegG.massless (neg_ne_zero.2 ho) p (d := -(-m * m)) (pos_sum (neg_ne_zero.2 ho) p (by nlinarith [mul_self_nonneg m]))
  have hi := Grow.energy_inv hm
  have he := Grow.energy m
  refine Hot.congr (Hot.add (Hot.massive hm (by grow) l1) (Hot.massless (by grow) l2)) (fun _ _ _ _ => rfl) ?_
  simp

theorem hot_d_i_m_m_l_i_same_mass (ho : om ≠ 0) (hp : p ≠ 0) (hm : m ≠ 0) : Hot (fun b q => thermal.d_i_m_m_l_i_same_mass q om p m b) (0) := by
  have e : ∀ b q, thermal.d_i_m_m_l_i_same_mass q om p m b =
      n[energy q m,b] * (((om : ℂ) * om * ((p : ℂ) * p * (om * om + p * p) * 64 * PI2)⁻¹) * (E[q,m]⁻¹ * (om * om + p * p) * 4 - E[q,m]⁻¹ * (((((p : ℂ) * q * 2 + R0 (om : ℂ) p E[q,m] ((0 : ℝ) : ℂ))⁻¹) * (((R0 (om : ℂ) p E[q,m] ((0 : ℝ) : ℂ)) + E[q,m] * ((p : ℂ) * p * ((om : ℂ)⁻¹ * 2 * Complex.I))) * ((R0 (om : ℂ) p E[q,m] ((0 : ℝ) : ℂ)) + E[q,m] * ((p : ℂ) * p * ((om : ℂ)⁻¹ * 2 * Complex.I)))) + (((p : ℂ) * q * 2 + R0 ((-om : ℝ) : ℂ) p E[q,m] ((0 : ℝ) : ℂ))⁻¹) * (((R0 ((-om : ℝ) : ℂ) p E[q,m] ((0 : ℝ) : ℂ)) - E[q,m] * ((p : ℂ) * p * ((om : ℂ)⁻¹ * 2 * Complex.I))) * ((R0 ((-om : ℝ) : ℂ) p E[q,m] ((0 : ℝ) : ℂ)) - E[q,m] * ((p : ℂ) * p * ((om : ℂ)⁻¹ * 2 * Complex.I))))) + (((-((p : ℂ) * q * 2) + R0 (om : ℂ) p E[q,m] ((0 : ℝ) : ℂ))⁻¹) * (((R0 (om : ℂ) p E[q,m] ((0 : ℝ) : ℂ)) + E[q,m] * ((p : ℂ) * p * ((om : ℂ)⁻¹ * 2 * Complex.I))) * ((R0 (om : ℂ) p E[q,m] ((0 : ℝ) : ℂ)) + E[q,m] * ((p : ℂ) * p * ((om : ℂ)⁻¹ * 2 * Complex.I)))) + ((-((p : ℂ) * q * 2) + R0 ((-om : ℝ) : ℂ) p E[q,m] ((0 : ℝ) : ℂ))⁻¹) * (((R0 ((-om : ℝ) : ℂ) p E[q,m] ((0 : ℝ) : ℂ)) - E[q,m] * ((p : ℂ) * p * ((om : ℂ)⁻¹ * 2 * Complex.I))) * ((R0 ((-om : ℝ) : ℂ) p E[q,m] ((0 : ℝ) : ℂ)) - E[q,m] * ((p : ℂ) * p * ((om : ℂ)⁻¹ * 2 * Complex.I)))))))) := by
    intro b q
    simp only [thermal.d_i_m_m_l_i_same_mass, tlog_eq, tlog_same_mass_eq, tlog_zero_mass_eq, tlog_l_eq, tlog_l_same_mass_eq, tlog_l_zero_mass_eq, tlog_t_eq, tlog_t_same_mass_eq,
      tlog_t_zero_mass_eq, r_0_eq, r_0_same_mass_eq, toC_real, toC_complex, ofR_real, ofR_complex]
    push_cast
    ring
  have hM := Line.massive m
  have h0 := Line.massless
  have ho2 := neg_ne_zero.2 ho
  have hp2 : (p : ℂ) ≠ 0 := Complex.ofReal_ne_zero.2 hp
  have ho3 : (om : ℂ) ≠ 0 := Complex.ofReal_ne_zero.2 ho
  have a1 := fun E d => (PF_alt om p E d).1
  have a2 := fun E d => (PF_alt om p E d).2
  simp only [e]
  have l1 : Tendsto (fun q : ℝ => (((om : ℂ) * om * ((p : ℂ) * p * (om * om + p * p) * 64 * PI2)⁻¹) * (E[q,m]⁻¹ * (om * om + p * p) * 4 - E[q,m]⁻¹ * (((((p : ℂ) * q * 2 + R0 (om : ℂ) p E[q,m] ((0 : ℝ) : ℂ))⁻¹) * (((R0 (om : ℂ) p E[q,m] ((0 : ℝ) : ℂ)) + E[q,m] * ((p : ℂ) * p * ((om : ℂ)⁻¹ * 2 * Complex.I))) * ((R0 (om : ℂ) p E[q,m] ((0 : ℝ) : ℂ)) + E[q,m] * ((p : ℂ) * p * ((om : ℂ)⁻¹ * 2 * Complex.I)))) + (((p : ℂ) * q * 2 + R0 ((-om : ℝ) : ℂ) p E[q,m] ((0 : ℝ) : ℂ))⁻¹) * (((R0 ((-om : ℝ) : ℂ) p E[q,m] ((0 : ℝ) : ℂ)) - E[q,m] * ((p : ℂ) * p * ((om : ℂ)⁻¹ * 2 * Complex.I))) * ((R0 ((-om : ℝ) : ℂ) p E[q,m] ((0 : ℝ) : ℂ)) - E[q,m] * ((p : ℂ) * p * ((om : ℂ)⁻¹ * 2 * Complex.I))))) + (((-((p : ℂ) * q * 2) + R0 (om : ℂ) p E[q,m] ((0 : ℝ) : ℂ))⁻¹) * (((R0 (om : ℂ) p E[q,m] ((0 : ℝ) : ℂ)) + E[q,m] * ((p : ℂ) * p * ((om : ℂ)⁻¹ * 2 * Complex.I))) * ((R0 (om : ℂ) p E[q,m] ((0 : ℝ) : ℂ)) + E[q,m] * ((p : ℂ) * p * ((om : ℂ)⁻¹ * 2 * Complex.I)))) + ((-((p : ℂ) * q * 2) + R0 ((-om : ℝ) : ℂ) p E[q,m] ((0 : ℝ) : ℂ))⁻¹) * (((R0 ((-om : ℝ) : ℂ) p E[q,m] ((0 : ℝ) : ℂ)) - E[q,m] * ((p : ℂ) * p * ((om : ℂ)⁻¹ * 2 * Complex.I))) * ((R0 ((-om : ℝ) : ℂ) p E[q,m] ((0 : ℝ) : ℂ)) - E[q,m] * ((p : ℂ) * p * ((om : ℂ)⁻¹ * 2 * Complex.I)))))))) / (q : ℂ)) atTop (𝓝 (0)) := by
    simp only [a1, a2]
    have key := ((((hM.nu.mul (invq_tendsto.pow 2)).const_mul ((om * om + p * p) * 4 : ℂ)).sub (((hM.nu.mul ((((hM.ip ho p 0).add (hM.im ho p 0)).mul ((hM.pf om p 0).mul (hM.pf om p 0))).add (((hM.ip ho2 p 0).add (hM.im ho2 p 0)).mul ((hM.pf (-om) p 0).mul (hM.pf (-om) p 0))))).mul invq_tendsto)))).const_mul ((om : ℂ) * om * ((p : ℂ) * p * (om * om + p * p) * 64 * PI2)⁻¹)
    refine (key.congr' ?_).trans (le_of_eq (by simp only [mul_zero, zero_mul, neg_zero, add_zero, sub_zero, zero_pow two_ne_zero, zero_pow three_ne_zero]))
    filter_upwards [eventually_gt_atTop 0] with q hq
    have hq : (q : ℂ) ≠ 0 := Complex.ofReal_ne_zero.2 hq.ne'
    generalize ((p : ℂ) * q * 2 + R0 (om : ℂ) p ((energy q m : ℝ) : ℂ) ((0 : ℝ) : ℂ))⁻¹ = x1
    generalize (-((p : ℂ) * q * 2) + R0 (om : ℂ) p ((energy q m : ℝ) : ℂ) ((0 : ℝ) : ℂ))⁻¹ = x2
    generalize ((p : ℂ) * q * 2 + R0 ((-om : ℝ) : ℂ) p ((energy q m : ℝ) : ℂ) ((0 : ℝ) : ℂ))⁻¹ = x3
    generalize (-((p : ℂ) * q * 2) + R0 ((-om : ℝ) : ℂ) p ((energy q m : ℝ) : ℂ) ((0 : ℝ) : ℂ))⁻¹ = x4
    generalize PF (om : ℂ) p ((energy q m : ℝ) : ℂ) ((0 : ℝ) : ℂ) = P1
    generalize PF ((-om : ℝ) : ℂ) p ((energy q m : ℝ) : ℂ) ((0 : ℝ) : ℂ) = P2
    generalize ((energy q m : ℝ) : ℂ)⁻¹ = E
    generalize ((om : ℂ) * om * ((p : ℂ) * p * (om * om + p * p) * 64 * PI2)⁻¹) = c
    field_simp
    ring
  obtain ⟨_, _, _, _, _, _, _⟩ := LegG.massive ho p hm 0
  obtain ⟨_, _, _, _, _, _, _⟩ := LegG.massive (neg_ne_zero.2 ho) p hm 0
  have hi := Grow.energy_inv hm
  have he := Grow.energy m
  refine Hot.congr (Hot.massive hm (by grow) l1) (fun _ _ _ _ => rfl) ?_
  simp

theorem hot_d_i_m_0_l_i (ho : om ≠ 0) (hp : p ≠ 0) (hm : m ≠ 0) : Hot (fun b q => thermal.d_i_m_0_l_i q om p m b) (0) := by
  have e : ∀ b q, thermal.d_i_m_0_l_i q om p m b =
      n[energy q m,b] * (((om : ℂ) * om * ((p : ℂ) * p * (om * om + p * p) * 64 * PI2)⁻¹) * (-(E[q,m]⁻¹ * (((((p : ℂ) * q * 2 + R0 (om : ℂ) p E[q,m] ((-m * m : ℝ) : ℂ))⁻¹) * (((R0 (om : ℂ) p E[q,m] ((-m * m : ℝ) : ℂ)) + E[q,m] * ((p : ℂ) * p * ((om : ℂ)⁻¹ * 2 * Complex.I))) * ((R0 (om : ℂ) p E[q,m] ((-m * m : ℝ) : ℂ)) + E[q,m] * ((p : ℂ) * p * ((om : ℂ)⁻¹ * 2 * Complex.I)))) + (((p : ℂ) * q * 2 + R0 ((-om : ℝ) : ℂ) p E[q,m] ((-m * m : ℝ) : ℂ))⁻¹) * (((R0 ((-om : ℝ) : ℂ) p E[q,m] ((-m * m : ℝ) : ℂ)) - E[q,m] * ((p : ℂ) * p * ((om : ℂ)⁻¹ * 2 * Complex.I))) * ((R0 ((-om : ℝ) : ℂ) p E[q,m] ((-m * m : ℝ) : ℂ)) - E[q,m] * ((p : ℂ) * p * ((om : ℂ)⁻¹ * 2 * Complex.I))))) + (((-((p : ℂ) * q * 2) + R0 (om : ℂ) p E[q,m] ((-m * m : ℝ) : ℂ))⁻¹) * (((R0 (om : ℂ) p E[q,m] ((-m * m : ℝ) : ℂ)) + E[q,m] * ((p : ℂ) * p * ((om : ℂ)⁻¹ * 2 * Complex.I))) * ((R0 (om : ℂ) p E[q,m] ((-m * m : ℝ) : ℂ)) + E[q,m] * ((p : ℂ) * p * ((om : ℂ)⁻¹ * 2 * Complex.I)))) + ((-((p : ℂ) * q * 2) + R0 ((-om : ℝ) : ℂ) p E[q,m] ((-m * m : ℝ) : ℂ))⁻¹) * (((R0 ((-om : ℝ) : ℂ) p E[q,m] ((-m * m : ℝ) : ℂ)) - E[q,m] * ((p : ℂ) * p * ((om : ℂ)⁻¹ * 2 * Complex.I))) * ((R0 ((-om : ℝ) : ℂ) p E[q,m] ((-m * m : ℝ) : ℂ)) - E[q,m] * ((p : ℂ) * p * ((om : ℂ)⁻¹ * 2 * Complex.I))))))) + E[q,m]⁻¹ * (-(m * m) + (om * om + p * p)) * 4 + E[q,m]⁻¹ * q * q * 8 - (p : ℂ)⁻¹ * (E[q,m]⁻¹ * q * (((R0 (om : ℂ) p E[q,m] ((-m * m : ℝ) : ℂ)) + E[q,m] * ((p : ℂ) * p * ((om : ℂ)⁻¹ * 2 * Complex.I))) * (TL q (om : ℂ) p E[q,m] ((-m * m : ℝ) : ℂ)) + ((R0 ((-om : ℝ) : ℂ) p E[q,m] ((-m * m : ℝ) : ℂ)) - E[q,m] * ((p : ℂ) * p * ((om : ℂ)⁻¹ * 2 * Complex.I))) * (TL q ((-om : ℝ) : ℂ) p E[q,m] ((-m * m : ℝ) : ℂ)))) * 2 - (p : ℂ)⁻¹ * (E[q,m]⁻¹ * q * (((((p : ℂ) * q * 2 + R0 (om : ℂ) p E[q,m] ((-m * m : ℝ) : ℂ))⁻¹ - (-((p : ℂ) * q * 2) + R0 (om : ℂ) p E[q,m] ((-m * m : ℝ) : ℂ))⁻¹)) * (((R0 (om : ℂ) p E[q,m] ((-m * m : ℝ) : ℂ)) + E[q,m] * ((p : ℂ) * p * ((om : ℂ)⁻¹ * 2 * Complex.I))) * ((R0 (om : ℂ) p E[q,m] ((-m * m : ℝ) : ℂ)) + E[q,m] * ((p : ℂ) * p * ((om : ℂ)⁻¹ * 2 * Complex.I)))) + ((((p : ℂ) * q * 2 + R0 ((-om : ℝ) : ℂ) p E[q,m] ((-m * m : ℝ) : ℂ))⁻¹ - (-((p : ℂ) * q * 2) + R0 ((-om : ℝ) : ℂ) p E[q,m] ((-m * m : ℝ) : ℂ))⁻¹)) * (((R0 ((-om : ℝ) : ℂ) p E[q,m] ((-m * m : ℝ) : ℂ)) - E[q,m] * ((p : ℂ) * p * ((om : ℂ)⁻¹ * 2 * Complex.I))) * ((R0 ((-om : ℝ) : ℂ) p E[q,m] ((-m * m : ℝ) : ℂ)) - E[q,m] * ((p : ℂ) * p * ((om : ℂ)⁻¹ * 2 * Complex.I))))))))
      + n[q,b] * (((om : ℂ) * om * ((p : ℂ) * p * (om * om + p * p) * 64 * PI2)⁻¹) * (-(q * (8 : ℂ)) + (p : ℂ)⁻¹ * (((R0 (om : ℂ) p (q : ℂ) ((-(-m * m) : ℝ) : ℂ)) + (q : ℂ) * ((p : ℂ) * p * ((om : ℂ)⁻¹ * 2 * Complex.I))) * (TL q (om : ℂ) p (q : ℂ) ((-(-m * m) : ℝ) : ℂ)) + ((R0 ((-om : ℝ) : ℂ) p (q : ℂ) ((-(-m * m) : ℝ) : ℂ)) - (q : ℂ) * ((p : ℂ) * p * ((om : ℂ)⁻¹ * 2 * Complex.I))) * (TL q ((-om : ℝ) : ℂ) p (q : ℂ) ((-(-m * m) : ℝ) : ℂ))) * 2 + (p : ℂ)⁻¹ * (((((p : ℂ) * q * 2 + R0 (om : ℂ) p (q : ℂ) ((-(-m * m) : ℝ) : ℂ))⁻¹ - (-((p : ℂ) * q * 2) + R0 (om : ℂ) p (q : ℂ) ((-(-m * m) : ℝ) : ℂ))⁻¹)) * (((R0 (om : ℂ) p (q : ℂ) ((-(-m * m) : ℝ) : ℂ)) + (q : ℂ) * ((p : ℂ) * p * ((om : ℂ)⁻¹ * 2 * Complex.I))) * ((R0 (om : ℂ) p (q : ℂ) ((-(-m * m) : ℝ) : ℂ)) + (q : ℂ) * ((p : ℂ) * p * ((om : ℂ)⁻¹ * 2 * Complex.I)))) + ((((p : ℂ) * q * 2 + R0 ((-om : ℝ) : ℂ) p (q : ℂ) ((-(-m * m) : ℝ) : ℂ))⁻¹ - (-((p : ℂ) * q * 2) + R0 ((-om : ℝ) : ℂ) p (q : ℂ) ((-(-m * m) : ℝ) : ℂ))⁻¹)) * (((R0 ((-om : ℝ) : ℂ) p (q : ℂ) ((-(-m * m) : ℝ) : ℂ)) - (q : ℂ) * ((p : ℂ) * p * ((om : ℂ)⁻¹ * 2 * Complex.I))) * ((R0 ((-om : ℝ) : ℂ) p (q : ℂ) ((-(-m * m) : ℝ) : ℂ)) - (q : ℂ) * ((p : ℂ) * p * ((om : ℂ)⁻¹ * 2 * Complex.I))))))) := by
    intro b q
    simp only [thermal.d_i_m_0_l_i, tlog_eq, tlog_same_mass_eq, tlog_zero_mass_eq, tlog_l_eq, tlog_l_same_mass_eq, tlog_l_zero_mass_eq, tlog_t_eq, tlog_t_same_mass_eq,
      tlog_t_zero_mass_eq, r_0_eq, r_0_same_mass_eq, toC_real, toC_complex, ofR_real, ofR_complex]
    push_cast
    ring
  have hM := Line.massive m
  have h0 := Line.massless
  have ho2 := neg_ne_zero.2 ho
  have hp2 : (p : ℂ) ≠ 0 := Complex.ofReal_ne_zero.2 hp
  have ho3 : (om : ℂ) ≠ 0 := Complex.ofReal_ne_zero.2 ho
  have a1 := fun E d => (PF_alt om p E d).1
  have a2 := fun E d => (PF_alt om p E d).2
  simp only [e]
  have l1 : Tendsto (fun q : ℝ => (((om : ℂ) * om * ((p : ℂ) * p * (om * om + p * p) * 64 * PI2)⁻¹) * (-(E[q,m]⁻¹ * (((((p : ℂ) * q * 2 + R0 (om : ℂ) p E[q,m] ((-m * m : ℝ) : ℂ))⁻¹) * (((R0 (om : ℂ) p E[q,m] ((-m * m : ℝ) : ℂ)) + E[q,m] * ((p : ℂ) * p * ((om : ℂ)⁻¹ * 2 * Complex.I))) * ((R0 (om : ℂ) p E[q,m] ((-m * m : ℝ) : ℂ)) + E[q,m] * ((p : ℂ) * p * ((om : ℂ)⁻¹ * 2 * Complex.I)))) + (((p : ℂ) * q * 2 + R0 ((-om : ℝ) : ℂ) p E[q,m] ((-m * m : ℝ) : ℂ))⁻¹) * (((R0 ((-om : ℝ) : ℂ) p E[q,m] ((-m * m : ℝ) : ℂ)) - E[q,m] * ((p : ℂ) * p * ((om : ℂ)⁻¹ * 2 * Complex.I))) * ((R0 ((-om : ℝ) : ℂ) p E[q,m] ((-m * m : ℝ) : ℂ)) - E[q,m] * ((p : ℂ) * p * ((om : ℂ)⁻¹ * 2 * Complex.I))))) + (((-((p : ℂ) * q * 2) + R0 (om : ℂ) p E[q,m] ((-m * m : ℝ) : ℂ))⁻¹) * (((R0 (om : ℂ) p E[q,m] ((-m * m : ℝ) : ℂ)) + E[q,m] * ((p : ℂ) * p * ((om : ℂ)⁻¹ * 2 * Complex.I))) * ((R0 (om : ℂ) p E[q,m] ((-m * m : ℝ) : ℂ)) + E[q,m] * ((p : ℂ) * p * ((om : ℂ)⁻¹ * 2 * Complex.I)))) + ((-((p : ℂ) * q * 2) + R0 ((-om : ℝ) : ℂ) p E[q,m] ((-m * m : ℝ) : ℂ))⁻¹) * (((R0 ((-om : ℝ) : ℂ) p E[q,m] ((-m * m : ℝ) : ℂ)) - E[q,m] * ((p : ℂ) * p * ((om : ℂ)⁻¹ * 2 * Complex.I))) * ((R0 ((-om : ℝ) : ℂ) p E[q,m] ((-m * m : ℝ) : ℂ)) - E[q,m] * ((p : ℂ) * p * ((om : ℂ)⁻¹ * 2 * Complex.I))))))) + E[q,m]⁻¹ * (-(m * m) + (om * om + p * p)) * 4 + E[q,m]⁻¹ * q * q * 8 - (p : ℂ)⁻¹ * (E[q,m]⁻¹ * q * (((R0 (om : ℂ) p E[q,m] ((-m * m : ℝ) : ℂ)) + E[q,m] * ((p : ℂ) * p * ((om : ℂ)⁻¹ * 2 * Complex.I))) * (TL q (om : ℂ) p E[q,m] ((-m * m : ℝ) : ℂ)) + ((R0 ((-om : ℝ) : ℂ) p E[q,m] ((-m * m : ℝ) : ℂ)) - E[q,m] * ((p : ℂ) * p * ((om : ℂ)⁻¹ * 2 * Complex.I))) * (TL q ((-om : ℝ) : ℂ) p E[q,m] ((-m * m : ℝ) : ℂ)))) * 2 - (p : ℂ)⁻¹ * (E[q,m]⁻¹ * q * (((((p : ℂ) * q * 2 + R0 (om : ℂ) p E[q,m] ((-m * m : ℝ) : ℂ))⁻¹ - (-((p : ℂ) * q * 2) + R0 (om : ℂ) p E[q,m] ((-m * m : ℝ) : ℂ))⁻¹)) * (((R0 (om : ℂ) p E[q,m] ((-m * m : ℝ) : ℂ)) + E[q,m] * ((p : ℂ) * p * ((om : ℂ)⁻¹ * 2 * Complex.I))) * ((R0 (om : ℂ) p E[q,m] ((-m * m : ℝ) : ℂ)) + E[q,m] * ((p : ℂ) * p * ((om : ℂ)⁻¹ * 2 * Complex.I)))) + ((((p : ℂ) * q * 2 + R0 ((-om : ℝ) : ℂ) p E[q,m] ((-m * m : ℝ) : ℂ))⁻¹ - (-((p : ℂ) * q * 2) + R0 ((-om : ℝ) : ℂ) p E[q,m] ((-m * m : ℝ) : ℂ))⁻¹)) * (((R0 ((-om : ℝ) : ℂ) p E[q,m] ((-m * m : ℝ) : ℂ)) - E[q,m] * ((p : ℂ) * p * ((om : ℂ)⁻¹ * 2 * Complex.I))) * ((R0 ((-om : ℝ) : ℂ) p E[q,m] ((-m * m : ℝ) : ℂ)) - E[q,m] * ((p : ℂ) * p * ((om : ℂ)⁻¹ * 2 * Complex.I)))))))) / (q : ℂ)) atTop (𝓝 (((om : ℂ) * om * ((p : ℂ) * p * (om * om + p * p) * 64 * PI2)⁻¹) * limDL om p)) := by
    simp only [a1, a2]
    have key := (((((hM.nu.mul (invq_tendsto.pow 2)).const_mul ((-(m * m) + (om * om + p * p)) * 4 : ℂ)).sub (((hM.nu.mul ((((hM.ip ho p (-m * m)).add (hM.im ho p (-m * m))).mul ((hM.pf om p (-m * m)).mul (hM.pf om p (-m * m)))).add (((hM.ip ho2 p (-m * m)).add (hM.im ho2 p (-m * m))).mul ((hM.pf (-om) p (-m * m)).mul (hM.pf (-om) p (-m * m)))))).mul invq_tendsto)))).add (hM.nu.mul (hM.legDL ho hp (-m * m)))).const_mul ((om : ℂ) * om * ((p : ℂ) * p * (om * om + p * p) * 64 * PI2)⁻¹)
    refine (key.congr' ?_).trans (le_of_eq (by simp only [mul_zero, zero_mul, neg_zero, add_zero, sub_zero, zero_pow two_ne_zero, one_mul, zero_add]))
    filter_upwards [eventually_gt_atTop 0] with q hq
    have hq : (q : ℂ) ≠ 0 := Complex.ofReal_ne_zero.2 hq.ne'
    generalize ((p : ℂ) * q * 2 + R0 (om : ℂ) p ((energy q m : ℝ) : ℂ) ((-m * m : ℝ) : ℂ))⁻¹ = x1
    generalize (-((p : ℂ) * q * 2) + R0 (om : ℂ) p ((energy q m : ℝ) : ℂ) ((-m * m : ℝ) : ℂ))⁻¹ = x2
    generalize ((p : ℂ) * q * 2 + R0 ((-om : ℝ) : ℂ) p ((energy q m : ℝ) : ℂ) ((-m * m : ℝ) : ℂ))⁻¹ = x3
    generalize (-((p : ℂ) * q * 2) + R0 ((-om : ℝ) : ℂ) p ((energy q m : ℝ) : ℂ) ((-m * m : ℝ) : ℂ))⁻¹ = x4
    generalize PF (om : ℂ) p ((energy q m : ℝ) : ℂ) ((-m * m : ℝ) : ℂ) = P1
    generalize PF ((-om : ℝ) : ℂ) p ((energy q m : ℝ) : ℂ) ((-m * m : ℝ) : ℂ) = P2
    generalize TL q (om : ℂ) p ((energy q m : ℝ) : ℂ) ((-m * m : ℝ) : ℂ) = T1
    generalize TL q ((-om : ℝ) : ℂ) p ((energy q m : ℝ) : ℂ) ((-m * m : ℝ) : ℂ) = T2
    generalize ((energy q m : ℝ) : ℂ)⁻¹ = E
    generalize ((om : ℂ) * om * ((p : ℂ) * p * (om * om + p * p) * 64 * PI2)⁻¹) = c
    field_simp
    ring
  have l2 : Tendsto (fun q : ℝ => (((om : ℂ) * om * ((p : ℂ) * p * (om * om + p * p) * 64 * PI2)⁻¹) * (-(q * (8 : ℂ)) + (p : ℂ)⁻¹ * (((R0 (om : ℂ) p (q : ℂ) ((-(-m * m) : ℝ) : ℂ)) + (q : ℂ) * ((p : ℂ) * p * ((om : ℂ)⁻¹ * 2 * Complex.I))) * (TL q (om : ℂ) p (q : ℂ) ((-(-m * m) : ℝ) : ℂ)) + ((R0 ((-om : ℝ) : ℂ) p (q : ℂ) ((-(-m * m) : ℝ) : ℂ)) - (q : ℂ) * ((p : ℂ) * p * ((om : ℂ)⁻¹ * 2 * Complex.I))) * (TL q ((-om : ℝ) : ℂ) p (q : ℂ) ((-(-m * m) : ℝ) : ℂ))) * 2 + (p : ℂ)⁻¹ * (((((p : ℂ) * q * 2 + R0 (om : ℂ) p (q : ℂ) ((-(-m * m) : ℝ) : ℂ))⁻¹ - (-((p : ℂ) * q * 2) + R0 (om : ℂ) p (q : ℂ) ((-(-m * m) : ℝ) : ℂ))⁻¹)) * (((R0 (om : ℂ) p (q : ℂ) ((-(-m * m) : ℝ) : ℂ)) + (q : ℂ) * ((p : ℂ) * p * ((om : ℂ)⁻¹ * 2 * Complex.I))) * ((R0 (om : ℂ) p (q : ℂ) ((-(-m * m) : ℝ) : ℂ)) + (q : ℂ) * ((p : ℂ) * p * ((om : ℂ)⁻¹ * 2 * Complex.I)))) + ((((p : ℂ) * q * 2 + R0 ((-om : ℝ) : ℂ) p (q : ℂ) ((-(-m * m) : ℝ) : ℂ))⁻¹ - (-((p : ℂ) * q * 2) + R0 ((-om : ℝ) : ℂ) p (q : ℂ) ((-(-m * m) : ℝ) : ℂ))⁻¹)) * (((R0 ((-om : ℝ) : ℂ) p (q : ℂ) ((-(-m * m) : ℝ) : ℂ)) - (q : ℂ) * ((p : ℂ) * p * ((om : ℂ)⁻¹ * 2 * Complex.I))) * ((R0 ((-om : ℝ) : ℂ) p (q : ℂ) ((-(-m * m) : ℝ) : ℂ)) - (q : ℂ) * ((p : ℂ) * p * ((om : ℂ)⁻¹ * 2 * Complex.I))))))) / (q : ℂ)) atTop (𝓝 (-(((om : ℂ) * om * ((p : ℂ) * p * (om * om + p * p) * 64 * PI2)⁻¹) * limDL om p))) := by
    simp only [a1, a2]
    have key := ((h0.legDL ho hp (-(-m * m))).const_mul ((om : ℂ) * om * ((p : ℂ) * p * (om * om + p * p) * 64 * PI2)⁻¹)).neg
    refine (key.congr' ?_).trans (le_of_eq (by rfl))
    filter_upwards [eventually_gt_atTop 0] with q hq
    have hq : (q : ℂ) ≠ 0 := Complex.ofReal_ne_zero.2 hq.ne'
    generalize ((p : ℂ) * q * 2 + R0 (om : ℂ) p (q : ℂ) ((-(-m * m) : ℝ) : ℂ))⁻¹ = x1
    generalize (-((p : ℂ) * q * 2) + R0 (om : ℂ) p (q : ℂ) ((-(-m * m) : ℝ) : ℂ))⁻¹ = x2
    generalize ((p : ℂ) * q * 2 + R0 ((-om : ℝ) : ℂ) p (q : ℂ) ((-(-m * m) : ℝ) : ℂ))⁻¹ = x3
    generalize (-((p : ℂ) * q * 2) + R0 ((-om : ℝ) : ℂ) p (q : ℂ) ((-(-m * m) : ℝ) : ℂ))⁻¹ = x4
    generalize PF (om : ℂ) p (q : ℂ) ((-(-m * m) : ℝ) : ℂ) = P1
    generalize PF ((-om : ℝ) : ℂ) p (q : ℂ) ((-(-m * m) : ℝ) : ℂ) = P2
    generalize TL q (om : ℂ) p (q : ℂ) ((-(-m * m) : ℝ) : ℂ) = T1
    generalize TL q ((-om : ℝ) : ℂ) p (q : ℂ) ((-(-m * m) : ℝ) : ℂ) = T2
    generalize ((om : ℂ) * om * ((p : ℂ) * p * (om * om + p * p) * 64 * PI2)⁻¹) = c
    field_simp
    ring
  obtain ⟨_, _, _, _, _, _, _⟩ := LegG.massive ho p hm (-m * m)
  obtain ⟨_, _, _, _, _, _, _⟩ := LegG.massive (neg_ne_zero.2 ho) p hm (-m * m)
  obtain ⟨_, _, _, _, _, _, _⟩ := LegG.massless ho p (d := -(-m * m)) (pos_sum ho p (by nlinarith [mul_self_nonneg m]))
  obtain ⟨_, _, _, _, _, _, _⟩ := LegG.massless (neg_ne_zero.2 ho) p (d := -(-m * m)) (pos_sum (neg_ne_zero.2 ho) p (by nlinarith [mul_self_nonneg m]))
  have hi := Grow.energy_inv hm
  have he := Grow.energy m
  refine Hot.congr (Hot.add (Hot.massive hm (by grow) l1) (Hot.massless (by grow) l2)) (fun _ _ _ _ => rfl) ?_
  ring

theorem hot_d_i_m_m_t_i_same_mass (ho : om ≠ 0) (hp : p ≠ 0) (hm : m ≠ 0) : Hot (fun b q => thermal.d_i_m_m_t_i_same_mass q om p m b) (0) := by
  have e : ∀ b q, thermal.d_i_m_m_t_i_same_mass q om p m b =
      n[energy q m,b] * (-((p * 32 * PI2 : ℂ)⁻¹ * (E[q,m]⁻¹ * ((TL q (om : ℂ) p E[q,m] ((0 : ℝ) : ℂ)) + (TL q ((-om : ℝ) : ℂ) p E[q,m] ((0 : ℝ) : ℂ))) * q))) := by
    intro b q
    simp only [thermal.d_i_m_m_t_i_same_mass, tlog_eq, tlog_same_mass_eq, tlog_zero_mass_eq, tlog_l_eq, tlog_l_same_mass_eq, tlog_l_zero_mass_eq, tlog_t_eq, tlog_t_same_mass_eq,
      tlog_t_zero_mass_eq, r_0_eq, r_0_same_mass_eq, toC_real, toC_complex, ofR_real, ofR_complex]
    push_cast
    ring
  have hM := Line.massive m
  have h0 := Line.massless
  have ho2 := neg_ne_zero.2 ho
  have hp2 : (p : ℂ) ≠ 0 := Complex.ofReal_ne_zero.2 hp
  have ho3 : (om : ℂ) ≠ 0 := Complex.ofReal_ne_zero.2 ho
  simp only [e]
  have l1 : Tendsto (fun q : ℝ => (-((p * 32 * PI2 : ℂ)⁻¹ * (E[q,m]⁻¹ * ((TL q (om : ℂ) p E[q,m] ((0 : ℝ) : ℂ)) + (TL q ((-om : ℝ) : ℂ) p E[q,m] ((0 : ℝ) : ℂ))) * q))) / (q : ℂ)) atTop (𝓝 (0)) := by
    have key := (((hM.nu.mul (hM.tlSum ho hp 0)).mul invq_tendsto).const_mul (-(p * 32 * PI2 : ℂ)⁻¹))
    refine (key.congr' ?_).trans (le_of_eq (by simp))
    filter_upwards [eventually_gt_atTop 0] with q hq
    have hq : (q : ℂ) ≠ 0 := Complex.ofReal_ne_zero.2 hq.ne'
    ring
  obtain ⟨_, _, _, _, _, _, _⟩ := LegG.massive ho p hm 0
  obtain ⟨_, _, _, _, _, _, _⟩ := LegG.massive (neg_ne_zero.2 ho) p hm 0
  have hi := Grow.energy_inv hm
  have he := Grow.energy m
  refine Hot.congr (Hot.massive hm (by grow) l1) (fun _ _ _ _ => rfl) ?_
  simp

theorem hot_d_i_m_0_t_i (ho : om ≠ 0) (hp : p ≠ 0) (hm : m ≠ 0) : Hot (fun b q => thermal.d_i_m_0_t_i q om p m b) (0) := by
  have e : ∀ b q, thermal.d_i_m_0_t_i q om p m b =
      n[energy q m,b] * ((p * 8 * PI2 : ℂ)⁻¹ * ((-(E[q,m]⁻¹ * ((TL q (om : ℂ) p E[q,m] ((-m * m : ℝ) : ℂ)) + (TL q ((-om : ℝ) : ℂ) p E[q,m] ((-m * m : ℝ) : ℂ))) * (1/4)) - E[q,m]⁻¹ * q * (p : ℂ)⁻¹ + E[q,m]⁻¹ * ((R0 (om : ℂ) p E[q,m] ((-m * m : ℝ) : ℂ)) * (TL q (om : ℂ) p E[q,m] ((-m * m : ℝ) : ℂ)) + (R0 ((-om : ℝ) : ℂ) p E[q,m] ((-m * m : ℝ) : ℂ)) * (TL q ((-om : ℝ) : ℂ) p E[q,m] ((-m * m : ℝ) : ℂ))) * (p * p * 8 : ℂ)⁻¹) * q))
      + n[q,b] * ((p * 8 * PI2 : ℂ)⁻¹ * ((p : ℂ)⁻¹ * q * (q * (q : ℂ)⁻¹) - ((R0 (om : ℂ) p (q : ℂ) ((-(-m * m) : ℝ) : ℂ)) * (TL q (om : ℂ) p (q : ℂ) ((-(-m * m) : ℝ) : ℂ)) + (R0 ((-om : ℝ) : ℂ) p (q : ℂ) ((-(-m * m) : ℝ) : ℂ)) * (TL q ((-om : ℝ) : ℂ) p (q : ℂ) ((-(-m * m) : ℝ) : ℂ))) * (p * p * 8 : ℂ)⁻¹ * (q * (q : ℂ)⁻¹))) := by
    intro b q
    simp only [thermal.d_i_m_0_t_i, tlog_eq, tlog_same_mass_eq, tlog_zero_mass_eq, tlog_l_eq, tlog_l_same_mass_eq, tlog_l_zero_mass_eq, tlog_t_eq, tlog_t_same_mass_eq,
      tlog_t_zero_mass_eq, r_0_eq, r_0_same_mass_eq, toC_real, toC_complex, ofR_real, ofR_complex]
    push_cast
    ring
  have hM := Line.massive m
  have h0 := Line.massless
  have ho2 := neg_ne_zero.2 ho
  have hp2 : (p : ℂ) ≠ 0 := Complex.ofReal_ne_zero.2 hp
  have ho3 : (om : ℂ) ≠ 0 := Complex.ofReal_ne_zero.2 ho
  simp only [e]
  have l1 : Tendsto (fun q : ℝ => ((p * 8 * PI2 : ℂ)⁻¹ * ((-(E[q,m]⁻¹ * ((TL q (om : ℂ) p E[q,m] ((-m * m : ℝ) : ℂ)) + (TL q ((-om : ℝ) : ℂ) p E[q,m] ((-m * m : ℝ) : ℂ))) * (1/4)) - E[q,m]⁻¹ * q * (p : ℂ)⁻¹ + E[q,m]⁻¹ * ((R0 (om : ℂ) p E[q,m] ((-m * m : ℝ) : ℂ)) * (TL q (om : ℂ) p E[q,m] ((-m * m : ℝ) : ℂ)) + (R0 ((-om : ℝ) : ℂ) p E[q,m] ((-m * m : ℝ) : ℂ)) * (TL q ((-om : ℝ) : ℂ) p E[q,m] ((-m * m : ℝ) : ℂ))) * (p * p * 8 : ℂ)⁻¹) * q)) / (q : ℂ)) atTop (𝓝 ((p * 8 * PI2 : ℂ)⁻¹ * limDT om p)) := by
    have key := ((((hM.nu.mul (hM.tlSum ho hp (-m * m))).mul invq_tendsto).const_mul (-(1 / 4) : ℂ)).add (hM.nu.mul (hM.legDT ho hp (-m * m)))).const_mul (p * 8 * PI2 : ℂ)⁻¹
    refine (key.congr' ?_).trans (le_of_eq (by simp only [mul_zero, zero_mul, zero_add, one_mul]))
    filter_upwards [eventually_gt_atTop 0] with q hq
    have hq : (q : ℂ) ≠ 0 := Complex.ofReal_ne_zero.2 hq.ne'
    generalize TL q (om : ℂ) p ((energy q m : ℝ) : ℂ) ((-m * m : ℝ) : ℂ) = T1
    generalize TL q ((-om : ℝ) : ℂ) p ((energy q m : ℝ) : ℂ) ((-m * m : ℝ) : ℂ) = T2
    generalize R0 (om : ℂ) p ((energy q m : ℝ) : ℂ) ((-m * m : ℝ) : ℂ) = R1
    generalize R0 ((-om : ℝ) : ℂ) p ((energy q m : ℝ) : ℂ) ((-m * m : ℝ) : ℂ) = R2
    generalize ((energy q m : ℝ) : ℂ)⁻¹ = E
    generalize (p * 8 * PI2 : ℂ)⁻¹ = c
    field_simp
    ring
  have l2 : Tendsto (fun q : ℝ => ((p * 8 * PI2 : ℂ)⁻¹ * ((p : ℂ)⁻¹ * q * (q * (q : ℂ)⁻¹) - ((R0 (om : ℂ) p (q : ℂ) ((-(-m * m) : ℝ) : ℂ)) * (TL q (om : ℂ) p (q : ℂ) ((-(-m * m) : ℝ) : ℂ)) + (R0 ((-om : ℝ) : ℂ) p (q : ℂ) ((-(-m * m) : ℝ) : ℂ)) * (TL q ((-om : ℝ) : ℂ) p (q : ℂ) ((-(-m * m) : ℝ) : ℂ))) * (p * p * 8 : ℂ)⁻¹ * (q * (q : ℂ)⁻¹))) / (q : ℂ)) atTop (𝓝 (-((p * 8 * PI2 : ℂ)⁻¹ * limDT om p))) := by
    have key := ((h0.legDT ho hp (-(-m * m))).const_mul (p * 8 * PI2 : ℂ)⁻¹).neg
    refine (key.congr' ?_).trans (le_of_eq (by rfl))
    filter_upwards [eventually_gt_atTop 0] with q hq
    have hq : (q : ℂ) ≠ 0 := Complex.ofReal_ne_zero.2 hq.ne'
    generalize TL q (om : ℂ) p (q : ℂ) ((-(-m * m) : ℝ) : ℂ) = T1
    generalize TL q ((-om : ℝ) : ℂ) p (q : ℂ) ((-(-m * m) : ℝ) : ℂ) = T2
    generalize R0 (om : ℂ) p (q : ℂ) ((-(-m * m) : ℝ) : ℂ) = R1
    generalize R0 ((-om : ℝ) : ℂ) p (q : ℂ) ((-(-m * m) : ℝ) : ℂ) = R2
    generalize (p * 8 * PI2 : ℂ)⁻¹ = c
    field_simp
    ring
  obtain ⟨_, _, _, _, _, _, _⟩ := LegG.massive ho p hm (-m * m)
  obtain ⟨_, _, _, _, _, _, _⟩ := LegG.massive (neg_ne_zero.2 ho) p hm (-m * m)
  obtain ⟨_, _, _, _, _, _, _⟩ := LegG.massless ho p (d := -(-m * m)) (pos_sum ho p (by nlinarith [mul_self_nonneg m]))
  obtain ⟨_, _, _, _, _, _, _⟩ := LegG.massless (neg_ne_zero.2 ho) p (d := -(-m * m)) (pos_sum (neg_ne_zero.2 ho) p (by nlinarith [mul_self_nonneg m]))
  have hi := Grow.energy_inv hm
  have he := Grow.energy m
  refine Hot.congr (Hot.add (Hot.massive hm (by grow) l1) (Hot.massless (by grow) l2)) (fun _ _ _ _ => rfl) ?_
  ring

theorem hot_d2_j_m_l_i (hm : m ≠ 0) : Hot (fun b q => ((thermal.d2_j_m_l_i q m b : ℝ) : ℂ)) 0 := by
  have e : ∀ b q, ((thermal.d2_j_m_l_i q m b : ℝ) : ℂ) =
      n[energy q m,b] * (E[q,m]⁻¹ * (8 * PI2 : ℂ)⁻¹)
      + ((b * bose_distribution_zero_chempot (energy q m) b * bose_distribution_zero_chempot (-energy q m) b : ℝ) : ℂ) * ((8 * PI2 : ℂ)⁻¹) := by
    intro b q
    simp only [thermal.d2_j_m_l_i, tlog_eq, tlog_same_mass_eq, tlog_zero_mass_eq, tlog_l_eq, tlog_l_same_mass_eq, tlog_l_zero_mass_eq, tlog_t_eq, tlog_t_same_mass_eq,
      tlog_t_zero_mass_eq, r_0_eq, r_0_same_mass_eq, toC_real, toC_complex, ofR_real, ofR_complex]
    push_cast
    ring
  have hM := Line.massive m
  simp only [e]
  have l1 : Tendsto (fun q : ℝ => (E[q,m]⁻¹ * (8 * PI2 : ℂ)⁻¹) / (q : ℂ)) atTop (𝓝 0) := by
    have key := (hM.nu.mul (invq_tendsto.pow 2)).mul_const (8 * PI2 : ℂ)⁻¹
    refine (key.congr' ?_).trans (le_of_eq (by simp))
    filter_upwards [eventually_gt_atTop 0] with q hq
    have hq : (q : ℂ) ≠ 0 := Complex.ofReal_ne_zero.2 hq.ne'
    field_simp
  have hi := Grow.energy_inv hm
  have he := Grow.energy m
  have l2 := Hot.deriv hm (K := fun q => (8 * PI2 : ℂ)⁻¹) (by grow) (C := ‖(8 * PI2 : ℂ)⁻¹‖) ?_
  · refine Hot.congr (Hot.add (Hot.massive hm (by grow) l1) l2) (fun _ _ _ _ => rfl) ?_
    simp
  · exact fun q _ => le_rfl

theorem hot_d2_j_m_i (hm : m ≠ 0) : Hot (fun b q => ((thermal.d2_j_m_i q m b : ℝ) : ℂ)) 0 := by
  have e : ∀ b q, ((thermal.d2_j_m_i q m b : ℝ) : ℂ) =
      n[energy q m,b] * (E[q,m]⁻¹ * E[q,m]⁻¹ * E[q,m]⁻¹ * (8 * PI2 : ℂ)⁻¹)
      + ((b * bose_distribution_zero_chempot (energy q m) b * bose_distribution_zero_chempot (-energy q m) b : ℝ) : ℂ) * (-(E[q,m] * E[q,m]⁻¹ * E[q,m]⁻¹ * E[q,m]⁻¹ * (8 * PI2 : ℂ)⁻¹)) := by
    intro b q
    simp only [thermal.d2_j_m_i, tlog_eq, tlog_same_mass_eq, tlog_zero_mass_eq, tlog_l_eq, tlog_l_same_mass_eq, tlog_l_zero_mass_eq, tlog_t_eq, tlog_t_same_mass_eq,
      tlog_t_zero_mass_eq, r_0_eq, r_0_same_mass_eq, toC_real, toC_complex, ofR_real, ofR_complex]
    push_cast
    ring
  have hM := Line.massive m
  simp only [e]
  have l1 : Tendsto (fun q : ℝ => (E[q,m]⁻¹ * E[q,m]⁻¹ * E[q,m]⁻¹ * (8 * PI2 : ℂ)⁻¹) / (q : ℂ)) atTop (𝓝 0) := by
    have key := ((hM.nu.pow 3).mul (invq_tendsto.pow 4)).mul_const (8 * PI2 : ℂ)⁻¹
    refine (key.congr' ?_).trans (le_of_eq (by simp))
    filter_upwards [eventually_gt_atTop 0] with q hq
    have hq : (q : ℂ) ≠ 0 := Complex.ofReal_ne_zero.2 hq.ne'
    generalize ((energy q m : ℝ) : ℂ)⁻¹ = E
    field_simp
  have hi := Grow.energy_inv hm
  have he := Grow.energy m
  have l2 := Hot.deriv hm (K := fun q => -(E[q,m] * E[q,m]⁻¹ * E[q,m]⁻¹ * E[q,m]⁻¹ * (8 * PI2 : ℂ)⁻¹)) (by grow) (C := |m|⁻¹ * |m|⁻¹ * ‖(8 * PI2 : ℂ)⁻¹‖) ?_
  · refine Hot.congr (Hot.add (Hot.massive hm (by grow) l1) l2) (fun _ _ _ _ => rfl) ?_
    simp
  · intro q hq
    have hm' := abs_pos.2 hm
    have g := abs_le_energy q m
    have hep := hm'.trans_le g
    rw [norm_neg, mul_inv_cancel₀ (Complex.ofReal_ne_zero.2 hep.ne'), one_mul, norm_mul, norm_mul, norm_inv, Complex.norm_real, Real.norm_of_nonneg hep.le]
    gcongr

/-- Differences of the tensor tadpoles. -/
theorem hot_j_t (hm : m ≠ 0) : Hot (fun b q => ((thermal.j_m_t_i q m b : ℝ) : ℂ) - ((thermal.j_0_t_i q b : ℝ) : ℂ)) (-(m ^ 2 * (1 / 24))) := by
  refine ((Hot.diff hm).mul_const (6 * PI2 : ℂ)⁻¹).congr (fun b q _ hq => ?_) ?_
  · have hq : (q : ℂ) ≠ 0 := Complex.ofReal_ne_zero.2 hq.ne'
    simp only [thermal.j_m_t_i, thermal.j_0_t_i, ofR_real]
    push_cast
    ring
  · rw [PI2]
    have := Real.pi_ne_zero
    push_cast
    field_simp
    ring

theorem hot_j_l (hm : m ≠ 0) : Hot (fun b q => ((thermal.j_m_l_i q m b : ℝ) : ℂ) - ((thermal.j_0_l_i q b : ℝ) : ℂ)) (m ^ 2 * (1 / 24)) := by
  refine (((Hot.diff hm).mul_const (-(2 * PI2 : ℂ)⁻¹)).add ((hot_j_m_i hm).const_mul (-(m : ℂ) ^ 2))).congr (fun b q _ hq => ?_) ?_
  · have hm' := abs_pos.2 hm
    have hep : (energy q m : ℝ) ≠ 0 := (hm'.trans_le (abs_le_energy q m)).ne'
    have h1 : E[q,m] = ((q : ℂ) ^ 2 + (m : ℂ) ^ 2) * E[q,m]⁻¹ := by
      have h2 : energy q m * energy q m = m * m + q * q := by
        rw [energy_real, Real.mul_self_sqrt (by nlinarith [mul_self_nonneg m, mul_self_nonneg q])]
      have h3 : E[q,m] * E[q,m] = (m : ℂ) * m + q * q := by exact_mod_cast h2
      have h4 : E[q,m] ≠ 0 := Complex.ofReal_ne_zero.2 hep
      field_simp
      linear_combination h3
    simp only [thermal.j_m_l_i, thermal.j_0_l_i, thermal.j_m_i, ofR_real]
    push_cast
    simp only [mul_inv]
    generalize n[energy q m,b] = n1
    generalize n[q,b] = n2
    have h5 : ((q : ℂ) ^ 2 + (m : ℂ) ^ 2) * E[q,m]⁻¹ - E[q,m] = 0 := by rw [← h1]; ring
    clear h1
    linear_combination (n1 * q ^ 2 * (PI2 : ℂ)⁻¹ * (1 / 2)) * h5
  · rw [PI2]
    have := Real.pi_ne_zero
    push_cast
    field_simp
    ring

end Qcd
