import Verif.Lemmas.Holomorphic
import Verif.Lemmas.DominationParts

/-! # The one-loop thermal integrands are holomorphic in the frequency

At frequencies off the imaginary axis, real momentum `p` and gluon mass `m ≠ 0` all integrands from which the ghost self-energy and the
gluon polarization are built satisfy `HolInt`. -/

set_option linter.unusedSimpArgs false
set_option linter.unusedVariables false

namespace Qcd
open MeasureTheory Filter Topology Set

/-- All the building blocks of a leg with energy `e` and mass difference `d`, at the frequency and at its opposite. -/
structure LegH (c M p : ℝ) (e : ℝ → ℝ) (d : ℝ) : Prop where
  e0 : Hol c M 0 fun _ q => ((e q : ℝ) : ℂ)
  tl : Hol c M 1 fun om q => TL q om p (e q) d
  r0 : Hol c M 0 fun om q => R0 om p (e q) d
  pf : Hol c M 0 fun om q => PF om p (e q) d
  ip : Hol c M 0 fun om q => ((p : ℂ) * q * 2 + R0 om p (e q) d)⁻¹
  im : Hol c M 0 fun om q => (-((p : ℂ) * q * 2) + R0 om p (e q) d)⁻¹
  id : Hol c M 1 fun om q => ((p : ℂ) * q * 2 + R0 om p (e q) d)⁻¹ - (-((p : ℂ) * q * 2) + R0 om p (e q) d)⁻¹
  tl' : Hol c M 1 fun om q => TL q (-om) p (e q) d
  r0' : Hol c M 0 fun om q => R0 (-om) p (e q) d
  pf' : Hol c M 0 fun om q => PF (-om) p (e q) d
  ip' : Hol c M 0 fun om q => ((p : ℂ) * q * 2 + R0 (-om) p (e q) d)⁻¹
  im' : Hol c M 0 fun om q => (-((p : ℂ) * q * 2) + R0 (-om) p (e q) d)⁻¹
  id' : Hol c M 1 fun om q => ((p : ℂ) * q * 2 + R0 (-om) p (e q) d)⁻¹ - (-((p : ℂ) * q * 2) + R0 (-om) p (e q) d)⁻¹

variable {c M p m b : ℝ}

theorem LegH.of (hc : 0 < c) (p : ℝ) {e : ℝ → ℝ} {d : ℝ} (h : Leg e d) : LegH c M p e d :=
  ⟨.of_grow h.grow, .TL hc p h, .R0 hc p h, .PF hc p h, .invP hc p h, .invM hc p h, .invD hc p h,
    (Hol.TL hc p h).flip, (Hol.R0 hc p h).flip, (Hol.PF hc p h).flip, (Hol.invP hc p h).flip, (Hol.invM hc p h).flip, (Hol.invD hc p h).flip⟩

theorem LegH.heavy (hc : 0 < c) (p m : ℝ) : LegH c M p (fun q => energy q m) (-m * m) :=
  .of hc p (by have := Leg.massive m 0; rwa [show (0 : ℝ) * 0 - m * m = -m * m by ring] at this)

theorem LegH.same (hc : 0 < c) (p m : ℝ) : LegH c M p (fun q => energy q m) 0 :=
  .of hc p (by have := Leg.massive m m; rwa [sub_self] at this)

theorem LegH.light (hc : 0 < c) (p m : ℝ) : LegH c M p (fun q => q) (-(-m * m)) :=
  .of hc p (by have := Leg.massless m; rwa [show m * m = -(-m * m) by ring] at this)

theorem LegH.zero (hc : 0 < c) (p : ℝ) : LegH c M p (fun q => q) 0 :=
  .of hc p (by have := Leg.massless 0; rwa [mul_zero] at this)

theorem Hol.id_mul_inv : Hol c M 0 fun _ q => (q : ℂ) * (q : ℂ)⁻¹ := .of_grow .id_mul_inv

theorem Hol.om_inv (hc : 0 < c) : Hol c M 0 fun om _ => om⁻¹ :=
  .coef hc (differentiableOn_id.inv fun om ho h0 => ho (by change om = 0 at h0; simp [h0]))

theorem om2_add_ne {om : ℂ} (ho : om.re ≠ 0) (p : ℝ) : om * om + (p : ℂ) * p ≠ 0 := fun h => by
  have h1 := congrArg Complex.re h
  have h2 := congrArg Complex.im h
  simp at h1 h2
  have h3 : om.im = 0 := by
    have : om.re * om.im = 0 := by linarith
    exact (mul_eq_zero.1 this).resolve_left ho
  rw [h3] at h1
  nlinarith [mul_self_pos.2 ho, mul_self_nonneg p]

theorem Hol.om2_inv (hc : 0 < c) (p : ℝ) : Hol c M 0 fun om _ => (om * om + (p : ℂ) * p)⁻¹ :=
  .coef hc (((differentiableOn_id.mul differentiableOn_id).add (differentiableOn_const _)).inv fun _ ho => om2_add_ne ho p)

syntax "hol" : tactic
macro_rules | `(tactic| hol) => `(tactic| first
  | with_reducible assumption
  | with_reducible exact Hol.const _
  | with_reducible exact Hol.id
  | with_reducible exact Hol.id.weaken
  | with_reducible exact Hol.id_mul_inv
  | with_reducible exact Hol.weaken (by with_reducible assumption)
  | (with_reducible refine Hol.add ?_ ?_ <;> hol)
  | (with_reducible refine Hol.sub ?_ ?_ <;> hol)
  | (with_reducible refine Hol.neg ?_ <;> hol)
  | (with_reducible refine Hol.mul00 ?_ ?_ <;> hol)
  | (with_reducible refine Hol.mul10 ?_ ?_ <;> hol)
  | (with_reducible refine Hol.mul01 ?_ ?_ <;> hol))

local notation "E[" q "," m "]" => ((energy (q : ℝ) (m : ℝ) : ℝ) : ℂ)
local notation "n[" x "," b "]" => ((bose_distribution_zero_chempot (x : ℝ) (b : ℝ) : ℝ) : ℂ)

/-- An integrand that does not depend on the frequency. -/
theorem HolInt.of_dom {F : ℝ → ℝ → ℂ} (hb : 0 < b) (hF : Dom b F) : HolInt (Ioi 0) c M fun _ q => F b q := by
  have := HolInt.weight (c := c) (M := M) hb le_rfl hF (Hol.const 1)
  simpa using this

theorem hol_i_m_0_i (hc : 0 < c) (hb : 0 < b) (hm : m ≠ 0) : HolInt (Ioi 0) c M fun om q => thermal.i_m_0_i q om p m b := by
  have e : ∀ (om : ℂ) (q : ℝ), thermal.i_m_0_i q om p m b =
      n[energy q m,b] * ((p * 16 * PI2 : ℂ)⁻¹ * ((q : ℂ) * E[q,m]⁻¹ * ((TL q om p E[q,m] ((-m * m : ℝ) : ℂ)) + (TL q (-om) p E[q,m] ((-m * m : ℝ) : ℂ)))))
      + n[q,b] * ((p * 16 * PI2 : ℂ)⁻¹ * ((TL q om p (q : ℂ) ((-(-m * m) : ℝ) : ℂ)) + (TL q (-om) p (q : ℂ) ((-(-m * m) : ℝ) : ℂ)))) := by
    intro om q
    simp only [thermal.i_m_0_i, tlog_eq, tlog_same_mass_eq, tlog_zero_mass_eq, tlog_l_eq, tlog_l_same_mass_eq, tlog_l_zero_mass_eq, tlog_t_eq, tlog_t_same_mass_eq,
      tlog_t_zero_mass_eq, r_0_eq, r_0_same_mass_eq, toC_real, toC_complex, ofR_real, ofR_complex]
    push_cast
    ring
  simp only [e]
  obtain ⟨_, _, _, _, _, _, _, _, _, _, _, _, _⟩ := LegH.heavy (M := M) hc p m
  obtain ⟨_, _, _, _, _, _, _, _, _, _, _, _, _⟩ := LegH.light (M := M) hc p m
  have hi : Hol c M 0 _ := .of_grow (Grow.energy_inv hm)
  have he : Hol c M 0 _ := .of_grow (Grow.energy m)
  have hom : Hol c M 0 _ := .om hc
  have hom1 : Hol c M 0 _ := .om_inv hc
  exact (HolInt.weight hb le_rfl (Dom.bose_massive hb hm) (by hol)).add (HolInt.massless hb (by hol))

theorem hol_i_m_m_i_same_mass (hc : 0 < c) (hb : 0 < b) (hm : m ≠ 0) : HolInt (Ioi 0) c M fun om q => thermal.i_m_m_i_same_mass q om p m b := by
  have e : ∀ (om : ℂ) (q : ℝ), thermal.i_m_m_i_same_mass q om p m b =
      n[energy q m,b] * ((p * 8 * PI2 : ℂ)⁻¹ * ((q : ℂ) * E[q,m]⁻¹ * ((TL q om p E[q,m] ((0 : ℝ) : ℂ)) + (TL q (-om) p E[q,m] ((0 : ℝ) : ℂ))))) := by
    intro om q
    simp only [thermal.i_m_m_i_same_mass, tlog_eq, tlog_same_mass_eq, tlog_zero_mass_eq, tlog_l_eq, tlog_l_same_mass_eq, tlog_l_zero_mass_eq, tlog_t_eq, tlog_t_same_mass_eq,
      tlog_t_zero_mass_eq, r_0_eq, r_0_same_mass_eq, toC_real, toC_complex, ofR_real, ofR_complex]
    push_cast
    ring
  simp only [e]
  obtain ⟨_, _, _, _, _, _, _, _, _, _, _, _, _⟩ := LegH.same (M := M) hc p m
  have hi : Hol c M 0 _ := .of_grow (Grow.energy_inv hm)
  have he : Hol c M 0 _ := .of_grow (Grow.energy m)
  have hom : Hol c M 0 _ := .om hc
  have hom1 : Hol c M 0 _ := .om_inv hc
  exact HolInt.weight hb le_rfl (Dom.bose_massive hb hm) (by hol)

theorem hol_i_0_0_i (hc : 0 < c) (hb : 0 < b) : HolInt (Ioi 0) c M fun om q => thermal.i_0_0_i q om p b := by
  have e : ∀ (om : ℂ) (q : ℝ), thermal.i_0_0_i q om p b =
      n[q,b] * ((p * 8 * PI2 : ℂ)⁻¹ * ((TL q om p (q : ℂ) ((0 : ℝ) : ℂ)) + (TL q (-om) p (q : ℂ) ((0 : ℝ) : ℂ)))) := by
    intro om q
    simp only [thermal.i_0_0_i, tlog_eq, tlog_same_mass_eq, tlog_zero_mass_eq, tlog_l_eq, tlog_l_same_mass_eq, tlog_l_zero_mass_eq, tlog_t_eq, tlog_t_same_mass_eq,
      tlog_t_zero_mass_eq, r_0_eq, r_0_same_mass_eq, toC_real, toC_complex, ofR_real, ofR_complex]
    push_cast
    ring
  simp only [e]
  obtain ⟨_, _, _, _, _, _, _, _, _, _, _, _, _⟩ := LegH.zero (M := M) hc p
  have hom : Hol c M 0 _ := .om hc
  have hom1 : Hol c M 0 _ := .om_inv hc
  exact HolInt.massless hb (by hol)

theorem hol_i_m_0_l_i (hc : 0 < c) (hb : 0 < b) (hm : m ≠ 0) : HolInt (Ioi 0) c M fun om q => thermal.i_m_0_l_i q om p m b := by
  have e : ∀ (om : ℂ) (q : ℝ), thermal.i_m_0_l_i q om p m b =
      n[energy q m,b] * ((om * om * ((p : ℂ) * p * p * (om * om + p * p) * 64 * PI2)⁻¹) * ((q : ℂ) * E[q,m]⁻¹ * ((TL q om p E[q,m] ((-m * m : ℝ) : ℂ)) * (PF om p E[q,m] ((-m * m : ℝ) : ℂ)) * (PF om p E[q,m] ((-m * m : ℝ) : ℂ)) + (TL q (-om) p E[q,m] ((-m * m : ℝ) : ℂ)) * (PF (-om) p E[q,m] ((-m * m : ℝ) : ℂ)) * (PF (-om) p E[q,m] ((-m * m : ℝ) : ℂ)) - q * ((p : ℂ) * 8 * (om * om + p * p + -(m * m))))))
      + n[q,b] * ((om * om * ((p : ℂ) * p * p * (om * om + p * p) * 64 * PI2)⁻¹) * ((TL q om p (q : ℂ) ((-(-m * m) : ℝ) : ℂ)) * (PF om p (q : ℂ) ((-(-m * m) : ℝ) : ℂ)) * (PF om p (q : ℂ) ((-(-m * m) : ℝ) : ℂ)) + (TL q (-om) p (q : ℂ) ((-(-m * m) : ℝ) : ℂ)) * (PF (-om) p (q : ℂ) ((-(-m * m) : ℝ) : ℂ)) * (PF (-om) p (q : ℂ) ((-(-m * m) : ℝ) : ℂ)) - q * ((p : ℂ) * 8 * (om * om + p * p + m * m)))) := by
    intro om q
    simp only [thermal.i_m_0_l_i, tlog_eq, tlog_same_mass_eq, tlog_zero_mass_eq, tlog_l_eq, tlog_l_same_mass_eq, tlog_l_zero_mass_eq, tlog_t_eq, tlog_t_same_mass_eq,
      tlog_t_zero_mass_eq, r_0_eq, r_0_same_mass_eq, toC_real, toC_complex, ofR_real, ofR_complex]
    push_cast
    ring
  simp only [e]
  obtain ⟨_, _, _, _, _, _, _, _, _, _, _, _, _⟩ := LegH.heavy (M := M) hc p m
  obtain ⟨_, _, _, _, _, _, _, _, _, _, _, _, _⟩ := LegH.light (M := M) hc p m
  have hi : Hol c M 0 _ := .of_grow (Grow.energy_inv hm)
  have he : Hol c M 0 _ := .of_grow (Grow.energy m)
  have hom : Hol c M 0 _ := .om hc
  have hom1 : Hol c M 0 _ := .om_inv hc
  have hk : Hol c M 0 fun om _ => ((p : ℂ) * p * p * (om * om + p * p) * 64 * PI2)⁻¹ := ((Hol.om2_inv hc p).mul00 (.const ((p : ℂ) * p * p * 64 * PI2)⁻¹)).congr
    (fun _ _ => measurable_const) fun om _ q _ => by rw [← mul_inv]; ring_nf
  exact (HolInt.weight hb le_rfl (Dom.bose_massive hb hm) (by hol)).add (HolInt.massless hb (by hol))

theorem hol_i_m_m_l_i_same_mass (hc : 0 < c) (hb : 0 < b) (hm : m ≠ 0) : HolInt (Ioi 0) c M fun om q => thermal.i_m_m_l_i_same_mass q om p m b := by
  have e : ∀ (om : ℂ) (q : ℝ), thermal.i_m_m_l_i_same_mass q om p m b =
      n[energy q m,b] * ((om * om * ((p : ℂ) * p * p * (om * om + p * p) * 32 * PI2)⁻¹) * ((q : ℂ) * E[q,m]⁻¹ * ((TL q om p E[q,m] ((0 : ℝ) : ℂ)) * (PF om p E[q,m] ((0 : ℝ) : ℂ)) * (PF om p E[q,m] ((0 : ℝ) : ℂ)) + (TL q (-om) p E[q,m] ((0 : ℝ) : ℂ)) * (PF (-om) p E[q,m] ((0 : ℝ) : ℂ)) * (PF (-om) p E[q,m] ((0 : ℝ) : ℂ)) - q * ((p : ℂ) * 8 * (om * om + p * p))))) := by
    intro om q
    simp only [thermal.i_m_m_l_i_same_mass, tlog_eq, tlog_same_mass_eq, tlog_zero_mass_eq, tlog_l_eq, tlog_l_same_mass_eq, tlog_l_zero_mass_eq, tlog_t_eq, tlog_t_same_mass_eq,
      tlog_t_zero_mass_eq, r_0_eq, r_0_same_mass_eq, toC_real, toC_complex, ofR_real, ofR_complex]
    push_cast
    ring
  simp only [e]
  obtain ⟨_, _, _, _, _, _, _, _, _, _, _, _, _⟩ := LegH.same (M := M) hc p m
  have hi : Hol c M 0 _ := .of_grow (Grow.energy_inv hm)
  have he : Hol c M 0 _ := .of_grow (Grow.energy m)
  have hom : Hol c M 0 _ := .om hc
  have hom1 : Hol c M 0 _ := .om_inv hc
  have hk : Hol c M 0 fun om _ => ((p : ℂ) * p * p * (om * om + p * p) * 32 * PI2)⁻¹ := ((Hol.om2_inv hc p).mul00 (.const ((p : ℂ) * p * p * 32 * PI2)⁻¹)).congr
    (fun _ _ => measurable_const) fun om _ q _ => by rw [← mul_inv]; ring_nf
  exact HolInt.weight hb le_rfl (Dom.bose_massive hb hm) (by hol)

theorem hol_i_0_0_l_i (hc : 0 < c) (hb : 0 < b) : HolInt (Ioi 0) c M fun om q => thermal.i_0_0_l_i q om p b := by
  have e : ∀ (om : ℂ) (q : ℝ), thermal.i_0_0_l_i q om p b =
      n[q,b] * ((om * om * ((p : ℂ) * p * p * (om * om + p * p) * 32 * PI2)⁻¹) * ((TL q om p (q : ℂ) ((0 : ℝ) : ℂ)) * (PF om p (q : ℂ) ((0 : ℝ) : ℂ)) * (PF om p (q : ℂ) ((0 : ℝ) : ℂ)) + (TL q (-om) p (q : ℂ) ((0 : ℝ) : ℂ)) * (PF (-om) p (q : ℂ) ((0 : ℝ) : ℂ)) * (PF (-om) p (q : ℂ) ((0 : ℝ) : ℂ)) - q * ((p : ℂ) * 8 * (om * om + p * p)))) := by
    intro om q
    simp only [thermal.i_0_0_l_i, tlog_eq, tlog_same_mass_eq, tlog_zero_mass_eq, tlog_l_eq, tlog_l_same_mass_eq, tlog_l_zero_mass_eq, tlog_t_eq, tlog_t_same_mass_eq,
      tlog_t_zero_mass_eq, r_0_eq, r_0_same_mass_eq, toC_real, toC_complex, ofR_real, ofR_complex]
    push_cast
    ring
  simp only [e]
  obtain ⟨_, _, _, _, _, _, _, _, _, _, _, _, _⟩ := LegH.zero (M := M) hc p
  have hom : Hol c M 0 _ := .om hc
  have hom1 : Hol c M 0 _ := .om_inv hc
  have hk : Hol c M 0 fun om _ => ((p : ℂ) * p * p * (om * om + p * p) * 32 * PI2)⁻¹ := ((Hol.om2_inv hc p).mul00 (.const ((p : ℂ) * p * p * 32 * PI2)⁻¹)).congr
    (fun _ _ => measurable_const) fun om _ q _ => by rw [← mul_inv]; ring_nf
  exact HolInt.massless hb (by hol)

theorem hol_i_m_0_t_i (hc : 0 < c) (hb : 0 < b) (hm : m ≠ 0) : HolInt (Ioi 0) c M fun om q => thermal.i_m_0_t_i q om p m b := by
  have e : ∀ (om : ℂ) (q : ℝ), thermal.i_m_0_t_i q om p m b =
      n[energy q m,b] * ((-((p : ℂ) * p * p * 128 * PI2)⁻¹) * ((q : ℂ) * E[q,m]⁻¹ * ((((R0 om p E[q,m] ((-m * m : ℝ) : ℂ)) + q * 2 * p) * ((R0 om p E[q,m] ((-m * m : ℝ) : ℂ)) - q * 2 * p) * (TL q om p E[q,m] ((-m * m : ℝ) : ℂ))) + (((R0 (-om) p E[q,m] ((-m * m : ℝ) : ℂ)) + q * 2 * p) * ((R0 (-om) p E[q,m] ((-m * m : ℝ) : ℂ)) - q * 2 * p) * (TL q (-om) p E[q,m] ((-m * m : ℝ) : ℂ))) - q * ((p : ℂ) * 8 * (om * om + p * p + -(m * m))))))
      + n[q,b] * ((-((p : ℂ) * p * p * 128 * PI2)⁻¹) * ((((R0 om p (q : ℂ) ((-(-m * m) : ℝ) : ℂ)) + q * 2 * p) * ((R0 om p (q : ℂ) ((-(-m * m) : ℝ) : ℂ)) - q * 2 * p) * (TL q om p (q : ℂ) ((-(-m * m) : ℝ) : ℂ))) + (((R0 (-om) p (q : ℂ) ((-(-m * m) : ℝ) : ℂ)) + q * 2 * p) * ((R0 (-om) p (q : ℂ) ((-(-m * m) : ℝ) : ℂ)) - q * 2 * p) * (TL q (-om) p (q : ℂ) ((-(-m * m) : ℝ) : ℂ))) - q * ((p : ℂ) * 8 * (om * om + p * p + m * m)))) := by
    intro om q
    simp only [thermal.i_m_0_t_i, tlog_eq, tlog_same_mass_eq, tlog_zero_mass_eq, tlog_l_eq, tlog_l_same_mass_eq, tlog_l_zero_mass_eq, tlog_t_eq, tlog_t_same_mass_eq,
      tlog_t_zero_mass_eq, r_0_eq, r_0_same_mass_eq, toC_real, toC_complex, ofR_real, ofR_complex]
    push_cast
    ring
  simp only [e]
  obtain ⟨_, _, _, _, _, _, _, _, _, _, _, _, _⟩ := LegH.heavy (M := M) hc p m
  obtain ⟨_, _, _, _, _, _, _, _, _, _, _, _, _⟩ := LegH.light (M := M) hc p m
  have hi : Hol c M 0 _ := .of_grow (Grow.energy_inv hm)
  have he : Hol c M 0 _ := .of_grow (Grow.energy m)
  have hom : Hol c M 0 _ := .om hc
  have hom1 : Hol c M 0 _ := .om_inv hc
  exact (HolInt.weight hb le_rfl (Dom.bose_massive hb hm) (by hol)).add (HolInt.massless hb (by hol))

theorem hol_i_m_m_t_i_same_mass (hc : 0 < c) (hb : 0 < b) (hm : m ≠ 0) : HolInt (Ioi 0) c M fun om q => thermal.i_m_m_t_i_same_mass q om p m b := by
  have e : ∀ (om : ℂ) (q : ℝ), thermal.i_m_m_t_i_same_mass q om p m b =
      n[energy q m,b] * ((-((p : ℂ) * p * p * 64 * PI2)⁻¹) * ((q : ℂ) * E[q,m]⁻¹ * ((((R0 om p E[q,m] ((0 : ℝ) : ℂ)) + q * 2 * p) * ((R0 om p E[q,m] ((0 : ℝ) : ℂ)) - q * 2 * p) * (TL q om p E[q,m] ((0 : ℝ) : ℂ))) + (((R0 (-om) p E[q,m] ((0 : ℝ) : ℂ)) + q * 2 * p) * ((R0 (-om) p E[q,m] ((0 : ℝ) : ℂ)) - q * 2 * p) * (TL q (-om) p E[q,m] ((0 : ℝ) : ℂ))) - q * ((p : ℂ) * 8 * (om * om + p * p))))) := by
    intro om q
    simp only [thermal.i_m_m_t_i_same_mass, tlog_eq, tlog_same_mass_eq, tlog_zero_mass_eq, tlog_l_eq, tlog_l_same_mass_eq, tlog_l_zero_mass_eq, tlog_t_eq, tlog_t_same_mass_eq,
      tlog_t_zero_mass_eq, r_0_eq, r_0_same_mass_eq, toC_real, toC_complex, ofR_real, ofR_complex]
    push_cast
    ring
  simp only [e]
  obtain ⟨_, _, _, _, _, _, _, _, _, _, _, _, _⟩ := LegH.same (M := M) hc p m
  have hi : Hol c M 0 _ := .of_grow (Grow.energy_inv hm)
  have he : Hol c M 0 _ := .of_grow (Grow.energy m)
  have hom : Hol c M 0 _ := .om hc
  have hom1 : Hol c M 0 _ := .om_inv hc
  exact HolInt.weight hb le_rfl (Dom.bose_massive hb hm) (by hol)

theorem hol_i_0_0_t_i (hc : 0 < c) (hb : 0 < b) : HolInt (Ioi 0) c M fun om q => thermal.i_0_0_t_i q om p b := by
  have e : ∀ (om : ℂ) (q : ℝ), thermal.i_0_0_t_i q om p b =
      n[q,b] * ((-((p : ℂ) * p * p * 64 * PI2)⁻¹) * ((((R0 om p (q : ℂ) ((0 : ℝ) : ℂ)) + q * 2 * p) * ((R0 om p (q : ℂ) ((0 : ℝ) : ℂ)) - q * 2 * p) * (TL q om p (q : ℂ) ((0 : ℝ) : ℂ))) + (((R0 (-om) p (q : ℂ) ((0 : ℝ) : ℂ)) + q * 2 * p) * ((R0 (-om) p (q : ℂ) ((0 : ℝ) : ℂ)) - q * 2 * p) * (TL q (-om) p (q : ℂ) ((0 : ℝ) : ℂ))) - q * ((p : ℂ) * 8 * (om * om + p * p)))) := by
    intro om q
    simp only [thermal.i_0_0_t_i, tlog_eq, tlog_same_mass_eq, tlog_zero_mass_eq, tlog_l_eq, tlog_l_same_mass_eq, tlog_l_zero_mass_eq, tlog_t_eq, tlog_t_same_mass_eq,
      tlog_t_zero_mass_eq, r_0_eq, r_0_same_mass_eq, toC_real, toC_complex, ofR_real, ofR_complex]
    push_cast
    ring
  simp only [e]
  obtain ⟨_, _, _, _, _, _, _, _, _, _, _, _, _⟩ := LegH.zero (M := M) hc p
  have hom : Hol c M 0 _ := .om hc
  have hom1 : Hol c M 0 _ := .om_inv hc
  exact HolInt.massless hb (by hol)

theorem hol_d_i_m_m_i_same_mass (hc : 0 < c) (hb : 0 < b) (hm : m ≠ 0) : HolInt (Ioi 0) c M fun om q => thermal.d_i_m_m_i_same_mass q om p m b := by
  have e : ∀ (om : ℂ) (q : ℝ), thermal.d_i_m_m_i_same_mass q om p m b =
      n[energy q m,b] * (-((16 * PI2 : ℂ)⁻¹ * (E[q,m]⁻¹ * ((((p : ℂ) * q * 2 + R0 om p E[q,m] ((0 : ℝ) : ℂ))⁻¹) + ((-((p : ℂ) * q * 2) + R0 om p E[q,m] ((0 : ℝ) : ℂ))⁻¹) + (((p : ℂ) * q * 2 + R0 (-om) p E[q,m] ((0 : ℝ) : ℂ))⁻¹) + ((-((p : ℂ) * q * 2) + R0 (-om) p E[q,m] ((0 : ℝ) : ℂ))⁻¹))))) := by
    intro om q
    simp only [thermal.d_i_m_m_i_same_mass, tlog_eq, tlog_same_mass_eq, tlog_zero_mass_eq, tlog_l_eq, tlog_l_same_mass_eq, tlog_l_zero_mass_eq, tlog_t_eq, tlog_t_same_mass_eq,
      tlog_t_zero_mass_eq, r_0_eq, r_0_same_mass_eq, toC_real, toC_complex, ofR_real, ofR_complex]
    push_cast
    ring
  simp only [e]
  obtain ⟨_, _, _, _, _, _, _, _, _, _, _, _, _⟩ := LegH.same (M := M) hc p m
  have hi : Hol c M 0 _ := .of_grow (Grow.energy_inv hm)
  have he : Hol c M 0 _ := .of_grow (Grow.energy m)
  have hom : Hol c M 0 _ := .om hc
  have hom1 : Hol c M 0 _ := .om_inv hc
  exact HolInt.weight hb le_rfl (Dom.bose_massive hb hm) (by hol)

theorem hol_d_i_m_0_i (hc : 0 < c) (hb : 0 < b) (hm : m ≠ 0) : HolInt (Ioi 0) c M fun om q => thermal.d_i_m_0_i q om p m b := by
  have e : ∀ (om : ℂ) (q : ℝ), thermal.d_i_m_0_i q om p m b =
      n[energy q m,b] * (-((16 * PI2 : ℂ)⁻¹ * (E[q,m]⁻¹ * ((((p : ℂ) * q * 2 + R0 om p E[q,m] ((-m * m : ℝ) : ℂ))⁻¹) + ((-((p : ℂ) * q * 2) + R0 om p E[q,m] ((-m * m : ℝ) : ℂ))⁻¹) + (((p : ℂ) * q * 2 + R0 (-om) p E[q,m] ((-m * m : ℝ) : ℂ))⁻¹) + ((-((p : ℂ) * q * 2) + R0 (-om) p E[q,m] ((-m * m : ℝ) : ℂ))⁻¹)) + E[q,m]⁻¹ * ((p : ℂ)⁻¹ * ((q : ℂ) * (((((p : ℂ) * q * 2 + R0 om p E[q,m] ((-m * m : ℝ) : ℂ))⁻¹ - (-((p : ℂ) * q * 2) + R0 om p E[q,m] ((-m * m : ℝ) : ℂ))⁻¹)) + ((((p : ℂ) * q * 2 + R0 (-om) p E[q,m] ((-m * m : ℝ) : ℂ))⁻¹ - (-((p : ℂ) * q * 2) + R0 (-om) p E[q,m] ((-m * m : ℝ) : ℂ))⁻¹))))))))
      + n[q,b] * ((16 * PI2 : ℂ)⁻¹ * ((p : ℂ)⁻¹ * ((q : ℂ) * (q : ℂ)⁻¹ * (((((p : ℂ) * q * 2 + R0 om p (q : ℂ) ((-(-m * m) : ℝ) : ℂ))⁻¹ - (-((p : ℂ) * q * 2) + R0 om p (q : ℂ) ((-(-m * m) : ℝ) : ℂ))⁻¹)) + ((((p : ℂ) * q * 2 + R0 (-om) p (q : ℂ) ((-(-m * m) : ℝ) : ℂ))⁻¹ - (-((p : ℂ) * q * 2) + R0 (-om) p (q : ℂ) ((-(-m * m) : ℝ) : ℂ))⁻¹)))))) := by
    intro om q
    simp only [thermal.d_i_m_0_i, tlog_eq, tlog_same_mass_eq, tlog_zero_mass_eq, tlog_l_eq, tlog_l_same_mass_eq, tlog_l_zero_mass_eq, tlog_t_eq, tlog_t_same_mass_eq,
      tlog_t_zero_mass_eq, r_0_eq, r_0_same_mass_eq, toC_real, toC_complex, ofR_real, ofR_complex]
    push_cast
    ring
  simp only [e]
  obtain ⟨_, _, _, _, _, _, _, _, _, _, _, _, _⟩ := LegH.heavy (M := M) hc p m
  obtain ⟨_, _, _, _, _, _, _, _, _, _, _, _, _⟩ := LegH.light (M := M) hc p m
  have hi : Hol c M 0 _ := .of_grow (Grow.energy_inv hm)
  have he : Hol c M 0 _ := .of_grow (Grow.energy m)
  have hom : Hol c M 0 _ := .om hc
  have hom1 : Hol c M 0 _ := .om_inv hc
  exact (HolInt.weight hb le_rfl (Dom.bose_massive hb hm) (by hol)).add (HolInt.massless hb (by hol))

theorem hol_d_i_m_m_l_i_same_mass (hc : 0 < c) (hb : 0 < b) (hm : m ≠ 0) : HolInt (Ioi 0) c M fun om q => thermal.d_i_m_m_l_i_same_mass q om p m b := by
  have e : ∀ (om : ℂ) (q : ℝ), thermal.d_i_m_m_l_i_same_mass q om p m b =
      n[energy q m,b] * ((om * om * ((p : ℂ) * p * (om * om + p * p) * 64 * PI2)⁻¹) * (E[q,m]⁻¹ * (om * om + p * p) * 4 - E[q,m]⁻¹ * (((((p : ℂ) * q * 2 + R0 om p E[q,m] ((0 : ℝ) : ℂ))⁻¹) * (((R0 om p E[q,m] ((0 : ℝ) : ℂ)) + E[q,m] * ((p : ℂ) * p * (om⁻¹ * 2 * Complex.I))) * ((R0 om p E[q,m] ((0 : ℝ) : ℂ)) + E[q,m] * ((p : ℂ) * p * (om⁻¹ * 2 * Complex.I)))) + (((p : ℂ) * q * 2 + R0 (-om) p E[q,m] ((0 : ℝ) : ℂ))⁻¹) * (((R0 (-om) p E[q,m] ((0 : ℝ) : ℂ)) - E[q,m] * ((p : ℂ) * p * (om⁻¹ * 2 * Complex.I))) * ((R0 (-om) p E[q,m] ((0 : ℝ) : ℂ)) - E[q,m] * ((p : ℂ) * p * (om⁻¹ * 2 * Complex.I))))) + (((-((p : ℂ) * q * 2) + R0 om p E[q,m] ((0 : ℝ) : ℂ))⁻¹) * (((R0 om p E[q,m] ((0 : ℝ) : ℂ)) + E[q,m] * ((p : ℂ) * p * (om⁻¹ * 2 * Complex.I))) * ((R0 om p E[q,m] ((0 : ℝ) : ℂ)) + E[q,m] * ((p : ℂ) * p * (om⁻¹ * 2 * Complex.I)))) + ((-((p : ℂ) * q * 2) + R0 (-om) p E[q,m] ((0 : ℝ) : ℂ))⁻¹) * (((R0 (-om) p E[q,m] ((0 : ℝ) : ℂ)) - E[q,m] * ((p : ℂ) * p * (om⁻¹ * 2 * Complex.I))) * ((R0 (-om) p E[q,m] ((0 : ℝ) : ℂ)) - E[q,m] * ((p : ℂ) * p * (om⁻¹ * 2 * Complex.I)))))))) := by
    intro om q
    simp only [thermal.d_i_m_m_l_i_same_mass, tlog_eq, tlog_same_mass_eq, tlog_zero_mass_eq, tlog_l_eq, tlog_l_same_mass_eq, tlog_l_zero_mass_eq, tlog_t_eq, tlog_t_same_mass_eq,
      tlog_t_zero_mass_eq, r_0_eq, r_0_same_mass_eq, toC_real, toC_complex, ofR_real, ofR_complex]
    push_cast
    ring
  simp only [e]
  obtain ⟨_, _, _, _, _, _, _, _, _, _, _, _, _⟩ := LegH.same (M := M) hc p m
  have hi : Hol c M 0 _ := .of_grow (Grow.energy_inv hm)
  have he : Hol c M 0 _ := .of_grow (Grow.energy m)
  have hom : Hol c M 0 _ := .om hc
  have hom1 : Hol c M 0 _ := .om_inv hc
  have hk : Hol c M 0 fun om _ => ((p : ℂ) * p * (om * om + p * p) * 64 * PI2)⁻¹ := ((Hol.om2_inv hc p).mul00 (.const ((p : ℂ) * p * 64 * PI2)⁻¹)).congr
    (fun _ _ => measurable_const) fun om _ q _ => by rw [← mul_inv]; ring_nf
  exact HolInt.weight hb le_rfl (Dom.bose_massive hb hm) (by hol)

theorem hol_d_i_m_0_l_i (hc : 0 < c) (hb : 0 < b) (hm : m ≠ 0) : HolInt (Ioi 0) c M fun om q => thermal.d_i_m_0_l_i q om p m b := by
  have e : ∀ (om : ℂ) (q : ℝ), thermal.d_i_m_0_l_i q om p m b =
      n[energy q m,b] * ((om * om * ((p : ℂ) * p * (om * om + p * p) * 64 * PI2)⁻¹) * (-(E[q,m]⁻¹ * (((((p : ℂ) * q * 2 + R0 om p E[q,m] ((-m * m : ℝ) : ℂ))⁻¹) * (((R0 om p E[q,m] ((-m * m : ℝ) : ℂ)) + E[q,m] * ((p : ℂ) * p * (om⁻¹ * 2 * Complex.I))) * ((R0 om p E[q,m] ((-m * m : ℝ) : ℂ)) + E[q,m] * ((p : ℂ) * p * (om⁻¹ * 2 * Complex.I)))) + (((p : ℂ) * q * 2 + R0 (-om) p E[q,m] ((-m * m : ℝ) : ℂ))⁻¹) * (((R0 (-om) p E[q,m] ((-m * m : ℝ) : ℂ)) - E[q,m] * ((p : ℂ) * p * (om⁻¹ * 2 * Complex.I))) * ((R0 (-om) p E[q,m] ((-m * m : ℝ) : ℂ)) - E[q,m] * ((p : ℂ) * p * (om⁻¹ * 2 * Complex.I))))) + (((-((p : ℂ) * q * 2) + R0 om p E[q,m] ((-m * m : ℝ) : ℂ))⁻¹) * (((R0 om p E[q,m] ((-m * m : ℝ) : ℂ)) + E[q,m] * ((p : ℂ) * p * (om⁻¹ * 2 * Complex.I))) * ((R0 om p E[q,m] ((-m * m : ℝ) : ℂ)) + E[q,m] * ((p : ℂ) * p * (om⁻¹ * 2 * Complex.I)))) + ((-((p : ℂ) * q * 2) + R0 (-om) p E[q,m] ((-m * m : ℝ) : ℂ))⁻¹) * (((R0 (-om) p E[q,m] ((-m * m : ℝ) : ℂ)) - E[q,m] * ((p : ℂ) * p * (om⁻¹ * 2 * Complex.I))) * ((R0 (-om) p E[q,m] ((-m * m : ℝ) : ℂ)) - E[q,m] * ((p : ℂ) * p * (om⁻¹ * 2 * Complex.I))))))) + E[q,m]⁻¹ * (-(m * m) + (om * om + p * p)) * 4 + E[q,m]⁻¹ * q * q * 8 - (p : ℂ)⁻¹ * (E[q,m]⁻¹ * q * (((R0 om p E[q,m] ((-m * m : ℝ) : ℂ)) + E[q,m] * ((p : ℂ) * p * (om⁻¹ * 2 * Complex.I))) * (TL q om p E[q,m] ((-m * m : ℝ) : ℂ)) + ((R0 (-om) p E[q,m] ((-m * m : ℝ) : ℂ)) - E[q,m] * ((p : ℂ) * p * (om⁻¹ * 2 * Complex.I))) * (TL q (-om) p E[q,m] ((-m * m : ℝ) : ℂ)))) * 2 - (p : ℂ)⁻¹ * (E[q,m]⁻¹ * q * (((((p : ℂ) * q * 2 + R0 om p E[q,m] ((-m * m : ℝ) : ℂ))⁻¹ - (-((p : ℂ) * q * 2) + R0 om p E[q,m] ((-m * m : ℝ) : ℂ))⁻¹)) * (((R0 om p E[q,m] ((-m * m : ℝ) : ℂ)) + E[q,m] * ((p : ℂ) * p * (om⁻¹ * 2 * Complex.I))) * ((R0 om p E[q,m] ((-m * m : ℝ) : ℂ)) + E[q,m] * ((p : ℂ) * p * (om⁻¹ * 2 * Complex.I)))) + ((((p : ℂ) * q * 2 + R0 (-om) p E[q,m] ((-m * m : ℝ) : ℂ))⁻¹ - (-((p : ℂ) * q * 2) + R0 (-om) p E[q,m] ((-m * m : ℝ) : ℂ))⁻¹)) * (((R0 (-om) p E[q,m] ((-m * m : ℝ) : ℂ)) - E[q,m] * ((p : ℂ) * p * (om⁻¹ * 2 * Complex.I))) * ((R0 (-om) p E[q,m] ((-m * m : ℝ) : ℂ)) - E[q,m] * ((p : ℂ) * p * (om⁻¹ * 2 * Complex.I))))))))
      + n[q,b] * ((om * om * ((p : ℂ) * p * (om * om + p * p) * 64 * PI2)⁻¹) * (-(q * (8 : ℂ)) + (p : ℂ)⁻¹ * (((R0 om p (q : ℂ) ((-(-m * m) : ℝ) : ℂ)) + (q : ℂ) * ((p : ℂ) * p * (om⁻¹ * 2 * Complex.I))) * (TL q om p (q : ℂ) ((-(-m * m) : ℝ) : ℂ)) + ((R0 (-om) p (q : ℂ) ((-(-m * m) : ℝ) : ℂ)) - (q : ℂ) * ((p : ℂ) * p * (om⁻¹ * 2 * Complex.I))) * (TL q (-om) p (q : ℂ) ((-(-m * m) : ℝ) : ℂ))) * 2 + (p : ℂ)⁻¹ * (((((p : ℂ) * q * 2 + R0 om p (q : ℂ) ((-(-m * m) : ℝ) : ℂ))⁻¹ - (-((p : ℂ) * q * 2) + R0 om p (q : ℂ) ((-(-m * m) : ℝ) : ℂ))⁻¹)) * (((R0 om p (q : ℂ) ((-(-m * m) : ℝ) : ℂ)) + (q : ℂ) * ((p : ℂ) * p * (om⁻¹ * 2 * Complex.I))) * ((R0 om p (q : ℂ) ((-(-m * m) : ℝ) : ℂ)) + (q : ℂ) * ((p : ℂ) * p * (om⁻¹ * 2 * Complex.I)))) + ((((p : ℂ) * q * 2 + R0 (-om) p (q : ℂ) ((-(-m * m) : ℝ) : ℂ))⁻¹ - (-((p : ℂ) * q * 2) + R0 (-om) p (q : ℂ) ((-(-m * m) : ℝ) : ℂ))⁻¹)) * (((R0 (-om) p (q : ℂ) ((-(-m * m) : ℝ) : ℂ)) - (q : ℂ) * ((p : ℂ) * p * (om⁻¹ * 2 * Complex.I))) * ((R0 (-om) p (q : ℂ) ((-(-m * m) : ℝ) : ℂ)) - (q : ℂ) * ((p : ℂ) * p * (om⁻¹ * 2 * Complex.I))))))) := by
    intro om q
    simp only [thermal.d_i_m_0_l_i, tlog_eq, tlog_same_mass_eq, tlog_zero_mass_eq, tlog_l_eq, tlog_l_same_mass_eq, tlog_l_zero_mass_eq, tlog_t_eq, tlog_t_same_mass_eq,
      tlog_t_zero_mass_eq, r_0_eq, r_0_same_mass_eq, toC_real, toC_complex, ofR_real, ofR_complex]
    push_cast
    ring
  simp only [e]
  obtain ⟨_, _, _, _, _, _, _, _, _, _, _, _, _⟩ := LegH.heavy (M := M) hc p m
  obtain ⟨_, _, _, _, _, _, _, _, _, _, _, _, _⟩ := LegH.light (M := M) hc p m
  have hi : Hol c M 0 _ := .of_grow (Grow.energy_inv hm)
  have he : Hol c M 0 _ := .of_grow (Grow.energy m)
  have hom : Hol c M 0 _ := .om hc
  have hom1 : Hol c M 0 _ := .om_inv hc
  have hk : Hol c M 0 fun om _ => ((p : ℂ) * p * (om * om + p * p) * 64 * PI2)⁻¹ := ((Hol.om2_inv hc p).mul00 (.const ((p : ℂ) * p * 64 * PI2)⁻¹)).congr
    (fun _ _ => measurable_const) fun om _ q _ => by rw [← mul_inv]; ring_nf
  exact (HolInt.weight hb le_rfl (Dom.bose_massive hb hm) (by hol)).add (HolInt.massless hb (by hol))

theorem hol_d_i_m_m_t_i_same_mass (hc : 0 < c) (hb : 0 < b) (hm : m ≠ 0) : HolInt (Ioi 0) c M fun om q => thermal.d_i_m_m_t_i_same_mass q om p m b := by
  have e : ∀ (om : ℂ) (q : ℝ), thermal.d_i_m_m_t_i_same_mass q om p m b =
      n[energy q m,b] * (-((p * 32 * PI2 : ℂ)⁻¹ * (E[q,m]⁻¹ * ((TL q om p E[q,m] ((0 : ℝ) : ℂ)) + (TL q (-om) p E[q,m] ((0 : ℝ) : ℂ))) * q))) := by
    intro om q
    simp only [thermal.d_i_m_m_t_i_same_mass, tlog_eq, tlog_same_mass_eq, tlog_zero_mass_eq, tlog_l_eq, tlog_l_same_mass_eq, tlog_l_zero_mass_eq, tlog_t_eq, tlog_t_same_mass_eq,
      tlog_t_zero_mass_eq, r_0_eq, r_0_same_mass_eq, toC_real, toC_complex, ofR_real, ofR_complex]
    push_cast
    ring
  simp only [e]
  obtain ⟨_, _, _, _, _, _, _, _, _, _, _, _, _⟩ := LegH.same (M := M) hc p m
  have hi : Hol c M 0 _ := .of_grow (Grow.energy_inv hm)
  have he : Hol c M 0 _ := .of_grow (Grow.energy m)
  have hom : Hol c M 0 _ := .om hc
  have hom1 : Hol c M 0 _ := .om_inv hc
  exact HolInt.weight hb le_rfl (Dom.bose_massive hb hm) (by hol)

theorem hol_d_i_m_0_t_i (hc : 0 < c) (hb : 0 < b) (hm : m ≠ 0) : HolInt (Ioi 0) c M fun om q => thermal.d_i_m_0_t_i q om p m b := by
  have e : ∀ (om : ℂ) (q : ℝ), thermal.d_i_m_0_t_i q om p m b =
      n[energy q m,b] * ((p * 8 * PI2 : ℂ)⁻¹ * ((-(E[q,m]⁻¹ * ((TL q om p E[q,m] ((-m * m : ℝ) : ℂ)) + (TL q (-om) p E[q,m] ((-m * m : ℝ) : ℂ))) * (1/4)) - E[q,m]⁻¹ * q * (p : ℂ)⁻¹ + E[q,m]⁻¹ * ((R0 om p E[q,m] ((-m * m : ℝ) : ℂ)) * (TL q om p E[q,m] ((-m * m : ℝ) : ℂ)) + (R0 (-om) p E[q,m] ((-m * m : ℝ) : ℂ)) * (TL q (-om) p E[q,m] ((-m * m : ℝ) : ℂ))) * (p * p * 8 : ℂ)⁻¹) * q))
      + n[q,b] * ((p * 8 * PI2 : ℂ)⁻¹ * ((p : ℂ)⁻¹ * q * (q * (q : ℂ)⁻¹) - ((R0 om p (q : ℂ) ((-(-m * m) : ℝ) : ℂ)) * (TL q om p (q : ℂ) ((-(-m * m) : ℝ) : ℂ)) + (R0 (-om) p (q : ℂ) ((-(-m * m) : ℝ) : ℂ)) * (TL q (-om) p (q : ℂ) ((-(-m * m) : ℝ) : ℂ))) * (p * p * 8 : ℂ)⁻¹ * (q * (q : ℂ)⁻¹))) := by
    intro om q
    simp only [thermal.d_i_m_0_t_i, tlog_eq, tlog_same_mass_eq, tlog_zero_mass_eq, tlog_l_eq, tlog_l_same_mass_eq, tlog_l_zero_mass_eq, tlog_t_eq, tlog_t_same_mass_eq,
      tlog_t_zero_mass_eq, r_0_eq, r_0_same_mass_eq, toC_real, toC_complex, ofR_real, ofR_complex]
    push_cast
    ring
  simp only [e]
  obtain ⟨_, _, _, _, _, _, _, _, _, _, _, _, _⟩ := LegH.heavy (M := M) hc p m
  obtain ⟨_, _, _, _, _, _, _, _, _, _, _, _, _⟩ := LegH.light (M := M) hc p m
  have hi : Hol c M 0 _ := .of_grow (Grow.energy_inv hm)
  have he : Hol c M 0 _ := .of_grow (Grow.energy m)
  have hom : Hol c M 0 _ := .om hc
  have hom1 : Hol c M 0 _ := .om_inv hc
  exact (HolInt.weight hb le_rfl (Dom.bose_massive hb hm) (by hol)).add (HolInt.massless hb (by hol))

/-! ### Zero spatial momentum -/

/-- The inverse denominator at zero spatial momentum. -/
structure LegZ (c M : ℝ) (e : ℝ → ℝ) (d : ℝ) : Prop where
  i0 : Hol c M 0 fun om q => (R0 om ((0 : ℝ) : ℂ) (e q) d)⁻¹
  i0' : Hol c M 0 fun om q => (R0 (-om) ((0 : ℝ) : ℂ) (e q) d)⁻¹

theorem LegZ.of {e : ℝ → ℝ} {d : ℝ} (h : LegH c M 0 e d) : LegZ c M e d :=
  ⟨by simpa using h.ip, by simpa using h.ip'⟩

theorem hol_zm_i_m_0_i (hc : 0 < c) (hb : 0 < b) (hm : m ≠ 0) : HolInt (Ioi 0) c M fun om q => thermal.zero_momentum.i_m_0_i q om m b := by
  have e : ∀ (om : ℂ) (q : ℝ), thermal.zero_momentum.i_m_0_i q om m b =
      n[energy q m,b] * ((4 * PI2 : ℂ)⁻¹ * ((q : ℂ) * q * E[q,m]⁻¹ * ((R0 om ((0 : ℝ) : ℂ) E[q,m] ((-m * m : ℝ) : ℂ))⁻¹ + (R0 (-om) ((0 : ℝ) : ℂ) E[q,m] ((-m * m : ℝ) : ℂ))⁻¹)))
      + n[q,b] * ((4 * PI2 : ℂ)⁻¹ * ((q : ℂ) * ((R0 om ((0 : ℝ) : ℂ) (q : ℂ) ((-(-m * m) : ℝ) : ℂ))⁻¹ + (R0 (-om) ((0 : ℝ) : ℂ) (q : ℂ) ((-(-m * m) : ℝ) : ℂ))⁻¹))) := by
    intro om q
    simp only [thermal.zero_momentum.i_m_0_i, thermal.zero_momentum.r_0, thermal.zero_momentum.r_0_same_mass, R0, toC_real, toC_complex, ofR_real, ofR_complex]
    push_cast
    ring
  simp only [e]
  obtain ⟨_, _⟩ := LegZ.of (LegH.heavy (M := M) hc 0 m)
  obtain ⟨_, _⟩ := LegZ.of (LegH.light (M := M) hc 0 m)
  have hi : Hol c M 0 _ := .of_grow (Grow.energy_inv hm)
  have he : Hol c M 0 _ := .of_grow (Grow.energy m)
  have hom : Hol c M 0 _ := .om hc
  exact (HolInt.weight hb le_rfl (Dom.bose_massive hb hm) (by hol)).add (HolInt.massless hb (by hol))

theorem hol_zm_i_m_m_i_same_mass (hc : 0 < c) (hb : 0 < b) (hm : m ≠ 0) : HolInt (Ioi 0) c M fun om q => thermal.zero_momentum.i_m_m_i_same_mass q om m b := by
  have e : ∀ (om : ℂ) (q : ℝ), thermal.zero_momentum.i_m_m_i_same_mass q om m b =
      n[energy q m,b] * ((2 * PI2 : ℂ)⁻¹ * ((q : ℂ) * q * E[q,m]⁻¹ * ((R0 om ((0 : ℝ) : ℂ) E[q,m] ((0 : ℝ) : ℂ))⁻¹ + (R0 (-om) ((0 : ℝ) : ℂ) E[q,m] ((0 : ℝ) : ℂ))⁻¹))) := by
    intro om q
    simp only [thermal.zero_momentum.i_m_m_i_same_mass, thermal.zero_momentum.r_0, thermal.zero_momentum.r_0_same_mass, R0, toC_real, toC_complex, ofR_real, ofR_complex]
    push_cast
    ring
  simp only [e]
  obtain ⟨_, _⟩ := LegZ.of (LegH.same (M := M) hc 0 m)
  have hi : Hol c M 0 _ := .of_grow (Grow.energy_inv hm)
  have he : Hol c M 0 _ := .of_grow (Grow.energy m)
  have hom : Hol c M 0 _ := .om hc
  exact HolInt.weight hb le_rfl (Dom.bose_massive hb hm) (by hol)

theorem hol_zm_i_0_0_i (hc : 0 < c) (hb : 0 < b) : HolInt (Ioi 0) c M fun om q => thermal.zero_momentum.i_0_0_i q om b := by
  have e : ∀ (om : ℂ) (q : ℝ), thermal.zero_momentum.i_0_0_i q om b =
      n[q,b] * ((2 * PI2 : ℂ)⁻¹ * ((q : ℂ) * ((R0 om ((0 : ℝ) : ℂ) (q : ℂ) ((0 : ℝ) : ℂ))⁻¹ + (R0 (-om) ((0 : ℝ) : ℂ) (q : ℂ) ((0 : ℝ) : ℂ))⁻¹))) := by
    intro om q
    simp only [thermal.zero_momentum.i_0_0_i, thermal.zero_momentum.r_0, thermal.zero_momentum.r_0_same_mass, R0, toC_real, toC_complex, ofR_real, ofR_complex]
    push_cast
    ring
  simp only [e]
  obtain ⟨_, _⟩ := LegZ.of (LegH.zero (M := M) hc 0)
  have hom : Hol c M 0 _ := .om hc
  exact HolInt.massless hb (by hol)

theorem hol_zm_i_m_0_l_i (hc : 0 < c) (hb : 0 < b) (hm : m ≠ 0) : HolInt (Ioi 0) c M fun om q => thermal.zero_momentum.i_m_0_l_i q om m b := by
  have e : ∀ (om : ℂ) (q : ℝ), thermal.zero_momentum.i_m_0_l_i q om m b =
      n[energy q m,b] * ((12 * PI2 : ℂ)⁻¹ * ((q : ℂ) * q * q * q * E[q,m]⁻¹ * ((R0 om ((0 : ℝ) : ℂ) E[q,m] ((-m * m : ℝ) : ℂ))⁻¹ + (R0 (-om) ((0 : ℝ) : ℂ) E[q,m] ((-m * m : ℝ) : ℂ))⁻¹)))
      + n[q,b] * ((12 * PI2 : ℂ)⁻¹ * ((q : ℂ) * q * q * ((R0 om ((0 : ℝ) : ℂ) (q : ℂ) ((-(-m * m) : ℝ) : ℂ))⁻¹ + (R0 (-om) ((0 : ℝ) : ℂ) (q : ℂ) ((-(-m * m) : ℝ) : ℂ))⁻¹))) := by
    intro om q
    simp only [thermal.zero_momentum.i_m_0_l_i, thermal.zero_momentum.r_0, thermal.zero_momentum.r_0_same_mass, R0, toC_real, toC_complex, ofR_real, ofR_complex]
    push_cast
    ring
  simp only [e]
  obtain ⟨_, _⟩ := LegZ.of (LegH.heavy (M := M) hc 0 m)
  obtain ⟨_, _⟩ := LegZ.of (LegH.light (M := M) hc 0 m)
  have hi : Hol c M 0 _ := .of_grow (Grow.energy_inv hm)
  have he : Hol c M 0 _ := .of_grow (Grow.energy m)
  have hom : Hol c M 0 _ := .om hc
  exact (HolInt.weight hb le_rfl (Dom.bose_massive hb hm) (by hol)).add (HolInt.massless hb (by hol))

theorem hol_zm_i_m_m_l_i_same_mass (hc : 0 < c) (hb : 0 < b) (hm : m ≠ 0) : HolInt (Ioi 0) c M fun om q => thermal.zero_momentum.i_m_m_l_i_same_mass q om m b := by
  have e : ∀ (om : ℂ) (q : ℝ), thermal.zero_momentum.i_m_m_l_i_same_mass q om m b =
      n[energy q m,b] * ((6 * PI2 : ℂ)⁻¹ * ((q : ℂ) * q * q * q * E[q,m]⁻¹ * ((R0 om ((0 : ℝ) : ℂ) E[q,m] ((0 : ℝ) : ℂ))⁻¹ + (R0 (-om) ((0 : ℝ) : ℂ) E[q,m] ((0 : ℝ) : ℂ))⁻¹))) := by
    intro om q
    simp only [thermal.zero_momentum.i_m_m_l_i_same_mass, thermal.zero_momentum.r_0, thermal.zero_momentum.r_0_same_mass, R0, toC_real, toC_complex, ofR_real, ofR_complex]
    push_cast
    ring
  simp only [e]
  obtain ⟨_, _⟩ := LegZ.of (LegH.same (M := M) hc 0 m)
  have hi : Hol c M 0 _ := .of_grow (Grow.energy_inv hm)
  have he : Hol c M 0 _ := .of_grow (Grow.energy m)
  have hom : Hol c M 0 _ := .om hc
  exact HolInt.weight hb le_rfl (Dom.bose_massive hb hm) (by hol)

theorem hol_zm_i_0_0_l_i (hc : 0 < c) (hb : 0 < b) : HolInt (Ioi 0) c M fun om q => thermal.zero_momentum.i_0_0_l_i q om b := by
  have e : ∀ (om : ℂ) (q : ℝ), thermal.zero_momentum.i_0_0_l_i q om b =
      n[q,b] * ((6 * PI2 : ℂ)⁻¹ * ((q : ℂ) * q * q * ((R0 om ((0 : ℝ) : ℂ) (q : ℂ) ((0 : ℝ) : ℂ))⁻¹ + (R0 (-om) ((0 : ℝ) : ℂ) (q : ℂ) ((0 : ℝ) : ℂ))⁻¹))) := by
    intro om q
    simp only [thermal.zero_momentum.i_0_0_l_i, thermal.zero_momentum.r_0, thermal.zero_momentum.r_0_same_mass, R0, toC_real, toC_complex, ofR_real, ofR_complex]
    push_cast
    ring
  simp only [e]
  obtain ⟨_, _⟩ := LegZ.of (LegH.zero (M := M) hc 0)
  have hom : Hol c M 0 _ := .om hc
  exact HolInt.massless hb (by hol)

theorem hol_zm_d_i_m_m_i_same_mass (hc : 0 < c) (hb : 0 < b) (hm : m ≠ 0) : HolInt (Ioi 0) c M fun om q => thermal.zero_momentum.d_i_m_m_i_same_mass q om m b := by
  have e : ∀ (om : ℂ) (q : ℝ), thermal.zero_momentum.d_i_m_m_i_same_mass q om m b =
      n[energy q m,b] * (-((8 * PI2 : ℂ)⁻¹ * (E[q,m]⁻¹ * ((R0 om ((0 : ℝ) : ℂ) E[q,m] ((0 : ℝ) : ℂ))⁻¹ + (R0 (-om) ((0 : ℝ) : ℂ) E[q,m] ((0 : ℝ) : ℂ))⁻¹)))) := by
    intro om q
    simp only [thermal.zero_momentum.d_i_m_m_i_same_mass, thermal.zero_momentum.r_0, thermal.zero_momentum.r_0_same_mass, R0, toC_real, toC_complex, ofR_real, ofR_complex]
    push_cast
    ring
  simp only [e]
  obtain ⟨_, _⟩ := LegZ.of (LegH.same (M := M) hc 0 m)
  have hi : Hol c M 0 _ := .of_grow (Grow.energy_inv hm)
  have he : Hol c M 0 _ := .of_grow (Grow.energy m)
  have hom : Hol c M 0 _ := .om hc
  exact HolInt.weight hb le_rfl (Dom.bose_massive hb hm) (by hol)

theorem hol_zm_d_i_m_0_i (hc : 0 < c) (hb : 0 < b) (hm : m ≠ 0) : HolInt (Ioi 0) c M fun om q => thermal.zero_momentum.d_i_m_0_i q om m b := by
  have e : ∀ (om : ℂ) (q : ℝ), thermal.zero_momentum.d_i_m_0_i q om m b =
      n[energy q m,b] * ((8 * PI2 : ℂ)⁻¹ * (-(E[q,m]⁻¹ * ((R0 om ((0 : ℝ) : ℂ) E[q,m] ((-m * m : ℝ) : ℂ))⁻¹ + (R0 (-om) ((0 : ℝ) : ℂ) E[q,m] ((-m * m : ℝ) : ℂ))⁻¹)) + (q : ℂ) * E[q,m]⁻¹ * ((R0 om ((0 : ℝ) : ℂ) E[q,m] ((-m * m : ℝ) : ℂ))⁻¹ * (R0 om ((0 : ℝ) : ℂ) E[q,m] ((-m * m : ℝ) : ℂ))⁻¹ + (R0 (-om) ((0 : ℝ) : ℂ) E[q,m] ((-m * m : ℝ) : ℂ))⁻¹ * (R0 (-om) ((0 : ℝ) : ℂ) E[q,m] ((-m * m : ℝ) : ℂ))⁻¹) * q * 2))
      + n[q,b] * (-((8 * PI2 : ℂ)⁻¹ * ((q : ℂ) * 2 * ((R0 om ((0 : ℝ) : ℂ) (q : ℂ) ((-(-m * m) : ℝ) : ℂ))⁻¹ * (R0 om ((0 : ℝ) : ℂ) (q : ℂ) ((-(-m * m) : ℝ) : ℂ))⁻¹ + (R0 (-om) ((0 : ℝ) : ℂ) (q : ℂ) ((-(-m * m) : ℝ) : ℂ))⁻¹ * (R0 (-om) ((0 : ℝ) : ℂ) (q : ℂ) ((-(-m * m) : ℝ) : ℂ))⁻¹)))) := by
    intro om q
    simp only [thermal.zero_momentum.d_i_m_0_i, thermal.zero_momentum.r_0, thermal.zero_momentum.r_0_same_mass, R0, toC_real, toC_complex, ofR_real, ofR_complex]
    push_cast
    ring
  simp only [e]
  obtain ⟨_, _⟩ := LegZ.of (LegH.heavy (M := M) hc 0 m)
  obtain ⟨_, _⟩ := LegZ.of (LegH.light (M := M) hc 0 m)
  have hi : Hol c M 0 _ := .of_grow (Grow.energy_inv hm)
  have he : Hol c M 0 _ := .of_grow (Grow.energy m)
  have hom : Hol c M 0 _ := .om hc
  exact (HolInt.weight hb le_rfl (Dom.bose_massive hb hm) (by hol)).add (HolInt.massless hb (by hol))

theorem hol_zm_d_i_m_m_l_i_same_mass (hc : 0 < c) (hb : 0 < b) (hm : m ≠ 0) : HolInt (Ioi 0) c M fun om q => thermal.zero_momentum.d_i_m_m_l_i_same_mass q om m b := by
  have e : ∀ (om : ℂ) (q : ℝ), thermal.zero_momentum.d_i_m_m_l_i_same_mass q om m b =
      n[energy q m,b] * (-((8 * PI2 : ℂ)⁻¹ * (E[q,m]⁻¹ * ((R0 om ((0 : ℝ) : ℂ) E[q,m] ((0 : ℝ) : ℂ))⁻¹ + (R0 (-om) ((0 : ℝ) : ℂ) E[q,m] ((0 : ℝ) : ℂ))⁻¹) * (q * q)))) := by
    intro om q
    simp only [thermal.zero_momentum.d_i_m_m_l_i_same_mass, thermal.zero_momentum.r_0, thermal.zero_momentum.r_0_same_mass, R0, toC_real, toC_complex, ofR_real, ofR_complex]
    push_cast
    ring
  simp only [e]
  obtain ⟨_, _⟩ := LegZ.of (LegH.same (M := M) hc 0 m)
  have hi : Hol c M 0 _ := .of_grow (Grow.energy_inv hm)
  have he : Hol c M 0 _ := .of_grow (Grow.energy m)
  have hom : Hol c M 0 _ := .om hc
  exact HolInt.weight hb le_rfl (Dom.bose_massive hb hm) (by hol)

theorem hol_zm_d_i_m_0_l_i (hc : 0 < c) (hb : 0 < b) (hm : m ≠ 0) : HolInt (Ioi 0) c M fun om q => thermal.zero_momentum.d_i_m_0_l_i q om m b := by
  have e : ∀ (om : ℂ) (q : ℝ), thermal.zero_momentum.d_i_m_0_l_i q om m b =
      n[energy q m,b] * ((8 * PI2 : ℂ)⁻¹ * ((-(E[q,m]⁻¹ * ((R0 om ((0 : ℝ) : ℂ) E[q,m] ((-m * m : ℝ) : ℂ))⁻¹ + (R0 (-om) ((0 : ℝ) : ℂ) E[q,m] ((-m * m : ℝ) : ℂ))⁻¹)) + (q : ℂ) * E[q,m]⁻¹ * ((R0 om ((0 : ℝ) : ℂ) E[q,m] ((-m * m : ℝ) : ℂ))⁻¹ * (R0 om ((0 : ℝ) : ℂ) E[q,m] ((-m * m : ℝ) : ℂ))⁻¹ + (R0 (-om) ((0 : ℝ) : ℂ) E[q,m] ((-m * m : ℝ) : ℂ))⁻¹ * (R0 (-om) ((0 : ℝ) : ℂ) E[q,m] ((-m * m : ℝ) : ℂ))⁻¹) * q * (2 / 3)) * (q * q)))
      + n[q,b] * (-((8 * PI2 : ℂ)⁻¹ * ((q : ℂ) * (2 / 3) * ((R0 om ((0 : ℝ) : ℂ) (q : ℂ) ((-(-m * m) : ℝ) : ℂ))⁻¹ * (R0 om ((0 : ℝ) : ℂ) (q : ℂ) ((-(-m * m) : ℝ) : ℂ))⁻¹ + (R0 (-om) ((0 : ℝ) : ℂ) (q : ℂ) ((-(-m * m) : ℝ) : ℂ))⁻¹ * (R0 (-om) ((0 : ℝ) : ℂ) (q : ℂ) ((-(-m * m) : ℝ) : ℂ))⁻¹) * (q * q)))) := by
    intro om q
    simp only [thermal.zero_momentum.d_i_m_0_l_i, thermal.zero_momentum.r_0, thermal.zero_momentum.r_0_same_mass, R0, toC_real, toC_complex, ofR_real, ofR_complex]
    push_cast
    ring
  simp only [e]
  obtain ⟨_, _⟩ := LegZ.of (LegH.heavy (M := M) hc 0 m)
  obtain ⟨_, _⟩ := LegZ.of (LegH.light (M := M) hc 0 m)
  have hi : Hol c M 0 _ := .of_grow (Grow.energy_inv hm)
  have he : Hol c M 0 _ := .of_grow (Grow.energy m)
  have hom : Hol c M 0 _ := .om hc
  exact (HolInt.weight hb le_rfl (Dom.bose_massive hb hm) (by hol)).add (HolInt.massless hb (by hol))

end Qcd
