import Verif.Props.ThermalLoopMatsubara
import Verif.Model.ThermalParts

/-! # C62, continued: tadpoles; C63: the quark loop -/

namespace Qcd
open MeasureTheory intervalIntegral
open consts (Consts)

variable {T T1 T2 T3 : Type} [Num T] [Num T1] [Num T2] [Num T3]

/-! ### Tadpoles -/

theorem tadpole_scalar (q : ℝ) (m : ℂ) (beta : ℝ) : Spec.tadpole Spec.scalar q m beta =
    (q : ℂ) ^ 2 / (2 * PI2) * (bose_distribution_zero_chempot (energy q m) beta / energy q m) := by
  simp only [Spec.tadpole, Spec.scalar]
  rw [int_one_c, spec_en, spec_bose, pi2_cast]; ring

theorem tadpole_energySq (q : ℝ) (m : ℂ) (beta : ℝ) : Spec.tadpole Spec.energySq q m beta =
    -((q : ℂ) ^ 2 / (2 * PI2)) * (bose_distribution_zero_chempot (energy q m) beta * energy q m) := by
  simp only [Spec.tadpole, Spec.energySq, neg_sq, mul_pow, Complex.I_sq]
  rw [int_one_c, spec_en, spec_bose, pi2_cast]
  by_cases hE : energy q m = 0
  · rw [hE]; simp
  · field_simp; ring

theorem tadpole_transverse (q : ℝ) (m : ℂ) (beta : ℝ) : Spec.tadpole (Spec.transverse q) q m beta =
    (q : ℂ) ^ 4 / (6 * PI2) * (bose_distribution_zero_chempot (energy q m) beta / energy q m) := by
  simp only [Spec.tadpole, Spec.transverse]
  have e : ∀ z : ℝ, (q : ℂ) ^ 2 * (1 - (z : ℂ) ^ 2) / 2 + (q : ℂ) ^ 2 * (1 - (z : ℂ) ^ 2) / 2 = (q : ℂ) ^ 2 + (-(q : ℂ) ^ 2) * (z : ℂ) ^ 2 := fun z => by ring
  simp only [e]
  rw [int_quad, spec_en, spec_bose, pi2_cast]; ring

/-- **C62**: the tadpole integrands are the angular integrals of the thermal tadpoles with numerators `1`, `q₀²` and `q_⊥²/2`. -/
theorem C62_tadpoles (q : ℝ) (m : T) (beta : ℝ) :
    toC (thermal.j_m_i q m beta) = Spec.tadpole Spec.scalar q (toC m) beta ∧
    toC (thermal.j_m_l_i q m beta) = Spec.tadpole Spec.energySq q (toC m) beta ∧
    toC (thermal.j_m_t_i q m beta) = Spec.tadpole (Spec.transverse q) q (toC m) beta := by
  refine ⟨?_, ?_, ?_⟩
  · rw [tadpole_scalar, toC_thermal_j_m_i]
    simp only [thermal.j_m_i, ofR_complex]; push_cast; ring
  · rw [tadpole_energySq, toC_thermal_j_m_l_i]
    simp only [thermal.j_m_l_i, ofR_complex]; push_cast; ring
  · rw [tadpole_transverse, toC_thermal_j_m_t_i]
    simp only [thermal.j_m_t_i, ofR_complex]; push_cast; ring

/-- **C62**: the massless tadpole integrands. -/
theorem C62_tadpoles_massless {q : ℝ} (hq : 0 < q) (beta : ℝ) :
    ((thermal.j_0_i q beta : ℝ) : ℂ) = Spec.tadpole Spec.scalar q 0 beta ∧
    ((thermal.j_0_l_i q beta : ℝ) : ℂ) = Spec.tadpole Spec.energySq q 0 beta ∧
    ((thermal.j_0_t_i q beta : ℝ) : ℂ) = Spec.tadpole (Spec.transverse q) q 0 beta := by
  have e0 : energy q (0 : ℂ) = (q : ℂ) := energy_zero hq.le
  have hq0 : (q : ℂ) ≠ 0 := by exact_mod_cast hq.ne'
  refine ⟨?_, ?_, ?_⟩
  · rw [tadpole_scalar, e0, ← ofReal_bose]
    simp only [thermal.j_0_i]; push_cast; field_simp
  · rw [tadpole_energySq, e0, ← ofReal_bose]
    simp only [thermal.j_0_l_i]; push_cast; field_simp
  · rw [tadpole_transverse, e0, ← ofReal_bose]
    simp only [thermal.j_0_t_i]; push_cast; field_simp

/-! ### The quark loop -/

theorem quark_int_l {q : ℝ} {om p : ℂ} {m : ℂ} (hq : q ≠ 0) (hp : p ≠ 0) (ho : om ≠ 0) (hs : om ^ 2 + p ^ 2 ≠ 0)
    (h : Spec.RegularLeg q om p m m) :
    ∫ z in (-1 : ℝ)..1,
      (Spec.quarkL q om p m (Complex.I * Spec.en q m) z / Spec.den (Complex.I * Spec.en q m) q om p m z
        + Spec.quarkL q om p m (-(Complex.I * Spec.en q m)) z / Spec.den (-(Complex.I * Spec.en q m)) q om p m z)
     = -(2 * (om ^ 2 + p ^ 2) / p ^ 2) * (1 - ((om ^ 2 + p ^ 2 - 4 * energy q m ^ 2 + 4 * om * Complex.I * energy q m) * TL q om p (energy q m) 0
        + (om ^ 2 + p ^ 2 - 4 * energy q m ^ 2 - 4 * om * Complex.I * energy q m) * TL q (-om) p (energy q m) 0) / (8 * q * p)) := by
  have hq' : (q : ℂ) ≠ 0 := by exact_mod_cast hq
  have hb : 2 * (q : ℂ) * p ≠ 0 := mul_ne_zero (mul_ne_zero two_ne_zero hq') hp
  have hpp := h.poles
  rw [sub_self] at hpp
  set E := energy q m with hE
  set s := om ^ 2 + p ^ 2 with hsd
  have hPF : PF om p E 0 = s * (om + 2 * Complex.I * E) / om := by simp only [PF, hsd]; field_simp; ring
  have hPF' : PF (-om) p E 0 = s * (om - 2 * Complex.I * E) / om := by simp only [PF, hsd, inv_neg]; field_simp; ring
  rw [int_pole2 hb hpp (om ^ 2 / (2 * p ^ 2 * s) * PF om p E 0 ^ 2 + s / 2) (om ^ 2 / (2 * p ^ 2 * s) * (-2 * PF om p E 0) - 1 / 2) (om ^ 2 / (2 * p ^ 2 * s))
    (om ^ 2 / (2 * p ^ 2 * s) * PF (-om) p E 0 ^ 2 + s / 2) (om ^ 2 / (2 * p ^ 2 * s) * (-2 * PF (-om) p E 0) - 1 / 2) (om ^ 2 / (2 * p ^ 2 * s)), TL_eq, TL_eq]
  · generalize Complex.log ((R0 om p E 0 + 2 * q * p) / (R0 om p E 0 - 2 * q * p)) = L1
    generalize Complex.log ((R0 (-om) p E 0 + 2 * q * p) / (R0 (-om) p E 0 - 2 * q * p)) = L2
    have hA : R0 om p E 0 = s + 2 * om * Complex.I * E := by simp only [R0, hsd]; ring
    have hA' : R0 (-om) p E 0 = s - 2 * om * Complex.I * E := by simp only [R0, hsd]; ring
    rw [hPF, hPF', hA, hA']
    have hI : Complex.I ^ 2 = -1 := Complex.I_sq
    have hom : om ^ 2 = s - p ^ 2 := by rw [hsd]; ring
    field_simp
    ring_nf
    simp only [hI, hom]
    ring
  · intro z hz
    simp only [Spec.quarkL]
    rw [den_pos, den_neg, sub_self, ← hE, ← hsd]
    obtain ⟨h1, h2⟩ := hpp z hz
    have e1 : p * (Complex.I * Spec.en q m) - om * (q * z) = om / (2 * p) * (PF om p E 0 - (R0 om p E 0 + 2 * q * p * z)) := by
      rw [spec_en, ← hE]
      simp only [PF, R0]
      field_simp
      ring
    have e2 : p * (-(Complex.I * Spec.en q m)) - om * (q * z) = om / (2 * p) * (PF (-om) p E 0 - (R0 (-om) p E 0 + 2 * q * p * z)) := by
      rw [spec_en, ← hE]
      simp only [PF, R0, inv_neg]
      field_simp
      ring
    simp only [Spec.longitudinal]
    rw [e1, e2, ← hsd]
    generalize PF om p E 0 = P at *
    generalize PF (-om) p E 0 = P' at *
    generalize R0 om p E 0 + 2 * q * p * z = A at *
    generalize R0 (-om) p E 0 + 2 * q * p * z = A' at *
    clear_value s
    field_simp
    ring

theorem quark_int_t {q : ℝ} {om p : ℂ} {m : ℂ} (hq : q ≠ 0) (hp : p ≠ 0) (h : Spec.RegularLeg q om p m m) :
    ∫ z in (-1 : ℝ)..1,
      (Spec.quarkT q om p m (Complex.I * Spec.en q m) z / Spec.den (Complex.I * Spec.en q m) q om p m z
        + Spec.quarkT q om p m (-(Complex.I * Spec.en q m)) z / Spec.den (-(Complex.I * Spec.en q m)) q om p m z)
     = -(1 / p ^ 2) * (p ^ 2 - om ^ 2 -
        (((p ^ 2 - om ^ 2) * (om ^ 2 + p ^ 2) + 4 * q ^ 2 * p ^ 2 + 4 * om ^ 2 * energy q m ^ 2 - 4 * om * (om ^ 2 + p ^ 2) * Complex.I * energy q m) * TL q om p (energy q m) 0
        + ((p ^ 2 - om ^ 2) * (om ^ 2 + p ^ 2) + 4 * q ^ 2 * p ^ 2 + 4 * om ^ 2 * energy q m ^ 2 + 4 * om * (om ^ 2 + p ^ 2) * Complex.I * energy q m) * TL q (-om) p (energy q m) 0) / (8 * q * p)) := by
  have hq' : (q : ℂ) ≠ 0 := by exact_mod_cast hq
  have hb : 2 * (q : ℂ) * p ≠ 0 := mul_ne_zero (mul_ne_zero two_ne_zero hq') hp
  have hpp := h.poles
  rw [sub_self] at hpp
  set E := energy q m with hE
  rw [int_pole2 hb hpp (((2 * q * p) ^ 2 - R0 om p E 0 ^ 2) / (4 * p ^ 2) + (om ^ 2 + p ^ 2) / 2) (R0 om p E 0 / (2 * p ^ 2) - 1 / 2) (-1 / (4 * p ^ 2))
    (((2 * q * p) ^ 2 - R0 (-om) p E 0 ^ 2) / (4 * p ^ 2) + (om ^ 2 + p ^ 2) / 2) (R0 (-om) p E 0 / (2 * p ^ 2) - 1 / 2) (-1 / (4 * p ^ 2)), TL_eq, TL_eq]
  · generalize Complex.log ((R0 om p E 0 + 2 * q * p) / (R0 om p E 0 - 2 * q * p)) = L1
    generalize Complex.log ((R0 (-om) p E 0 + 2 * q * p) / (R0 (-om) p E 0 - 2 * q * p)) = L2
    simp only [R0]
    have hI : Complex.I ^ 2 = -1 := Complex.I_sq
    field_simp
    ring_nf
    simp only [hI]
    ring
  · intro z hz
    simp only [Spec.quarkT]
    rw [den_pos, den_neg, sub_self, ← hE]
    obtain ⟨h1, h2⟩ := hpp z hz
    simp only [Spec.transverse]
    obtain ⟨D, hD⟩ : ∃ D, D = R0 om p E 0 + 2 * q * p * z := ⟨_, rfl⟩
    obtain ⟨D', hD'⟩ : ∃ D, D = R0 (-om) p E 0 + 2 * q * p * z := ⟨_, rfl⟩
    rw [← hD] at h1 ⊢
    rw [← hD'] at h2 ⊢
    rw [show R0 om p E 0 = D - 2 * q * p * z by rw [hD]; ring,
      show R0 (-om) p E 0 = D' - 2 * q * p * z by rw [hD']; ring]
    field_simp
    ring

/-- **C63**: `polarization_quark_l_thermal_part_landau_i` is the longitudinal projection of the quark loop. -/
theorem C63_quark_l (k : Consts ℝ) {q : ℝ} {om : T1} {p : T2} {mq : ℝ} (hq : q ≠ 0) (hp : p ≠ 0) (ho : om ≠ 0)
    (hs : toC om ^ 2 + toC p ^ 2 ≠ 0) (h : Spec.Regular q (toC om) (toC p) mq mq) (beta : ℝ) (mu : ℝ) :
    gluon.thermal.polarization_quark_l_thermal_part_landau_i k q om p mq beta mu =
      Spec.quarkLoop (Spec.quarkL q (toC om) (toC p) mq) k.nc (fermi_distribution_double (energy q mq) beta mu) q (toC om) (toC p) mq := by
  have hp' : toC p ≠ 0 := fun h0 => hp (toC_injective (h0.trans toC_zero.symm))
  have ho' : toC om ≠ 0 := fun h0 => ho (toC_injective (h0.trans toC_zero.symm))
  have hq' : (q : ℂ) ≠ 0 := by exact_mod_cast hq
  rw [Spec.quarkLoop, quark_int_l hq hp' ho' hs h.1, spec_en]
  simp only [gluon.thermal.polarization_quark_l_thermal_part_landau_i, tlog_same_mass_eq, map_add, map_sub, map_inv₀, map_mul, toC_ofR, toC_neg', map_div₀, toC_real, toC_complex, ofR_complex, Complex.ofReal_mul, Complex.ofReal_add, Complex.ofReal_sub, Complex.ofReal_div, Complex.ofReal_neg, Complex.ofReal_inv, Complex.ofReal_ofNat, Complex.ofReal_natCast, Complex.ofReal_one, ofReal_energy]
  generalize fermi_distribution_double (energy q mq) beta mu = n
  rw [pi2_cast]
  obtain ⟨om, hom⟩ : ∃ x, x = toC om := ⟨_, rfl⟩
  obtain ⟨p, hpp⟩ : ∃ x, x = toC p := ⟨_, rfl⟩
  simp only [← hom, ← hpp] at *
  generalize TL q om p (energy q (mq : ℂ)) 0 = L1
  generalize TL q (-om) p (energy q (mq : ℂ)) 0 = L2
  generalize energy q (mq : ℂ) = E
  rw [show om * om + p * p = om ^ 2 + p ^ 2 by ring]
  generalize om ^ 2 + p ^ 2 = s
  ring

/-- **C63**: `polarization_quark_t_thermal_part_landau_i` is the transverse projection of the quark loop. -/
theorem C63_quark_t (k : Consts ℝ) {q : ℝ} {om : T1} {p : ℝ} {mq : ℝ} (hq : q ≠ 0) (hp : p ≠ 0)
    (h : Spec.Regular q (toC om) p mq mq) (beta : ℝ) (mu : ℝ) :
    gluon.thermal.polarization_quark_t_thermal_part_landau_i k q om p mq beta mu =
      Spec.quarkLoop (Spec.quarkT q (toC om) p mq) k.nc (fermi_distribution_double (energy q mq) beta mu) q (toC om) p mq := by
  have hp' : (p : ℂ) ≠ 0 := by exact_mod_cast hp
  have hq' : (q : ℂ) ≠ 0 := by exact_mod_cast hq
  rw [Spec.quarkLoop, quark_int_t hq hp' h.1, spec_en]
  simp only [gluon.thermal.polarization_quark_t_thermal_part_landau_i, tlog_same_mass_eq, map_add, map_sub, map_inv₀, map_mul, toC_ofR, toC_neg', map_div₀, toC_real, toC_complex, ofR_complex, Complex.ofReal_mul, Complex.ofReal_add, Complex.ofReal_sub, Complex.ofReal_div, Complex.ofReal_neg, Complex.ofReal_inv, Complex.ofReal_ofNat, Complex.ofReal_natCast, Complex.ofReal_one, ofReal_energy]
  generalize fermi_distribution_double (energy q mq) beta mu = n
  rw [pi2_cast]
  obtain ⟨om, hom⟩ : ∃ x, x = toC om := ⟨_, rfl⟩
  simp only [← hom] at *
  generalize TL q om p (energy q (mq : ℂ)) 0 = L1
  generalize TL q (-om) p (energy q (mq : ℂ)) 0 = L2
  generalize energy q (mq : ℂ) = E
  field_simp
  ring

theorem quark0_den {q : ℝ} {om m : ℂ} (ho : om ≠ 0) (h : Spec.RegularLeg q om 0 m m) :
    om + 2 * Complex.I * energy q m ≠ 0 ∧ om - 2 * Complex.I * energy q m ≠ 0 ∧
    R0 om 0 (energy q m) 0 = om * (om + 2 * Complex.I * energy q m) ∧
    R0 (-om) 0 (energy q m) 0 = om * (om - 2 * Complex.I * energy q m) ∧
    om ^ 2 + 4 * energy q m ^ 2 = (om + 2 * Complex.I * energy q m) * (om - 2 * Complex.I * energy q m) := by
  have h0 := h.poles 0 (by simp)
  have e1 : R0 om 0 (energy q m) 0 = om * (om + 2 * Complex.I * energy q m) := by simp only [R0]; ring
  have e2 : R0 (-om) 0 (energy q m) 0 = om * (om - 2 * Complex.I * energy q m) := by simp only [R0]; ring
  simp only [sub_self, mul_zero, zero_mul, add_zero] at h0
  rw [e1, e2] at h0
  refine ⟨(mul_ne_zero_iff.1 h0.1).2, (mul_ne_zero_iff.1 h0.2).2, e1, e2, ?_⟩
  linear_combination 4 * energy q m ^ 2 * Complex.I_sq

theorem quark0_int_l {q : ℝ} {om : ℂ} {m : ℂ} (ho : om ≠ 0) (hE : energy q m ≠ 0) (h : Spec.RegularLeg q om 0 m m) :
    ∫ z in (-1 : ℝ)..1,
      (Spec.quarkL q om 0 m (Complex.I * Spec.en q m) z / Spec.den (Complex.I * Spec.en q m) q om 0 m z
        + Spec.quarkL q om 0 m (-(Complex.I * Spec.en q m)) z / Spec.den (-(Complex.I * Spec.en q m)) q om 0 m z)
     = 8 / 3 * (q ^ 2 - 3 * energy q m ^ 2) / (om ^ 2 + 4 * energy q m ^ 2) := by
  obtain ⟨h1, h2, e1, e2, e3⟩ := quark0_den ho h
  have key : ∀ z : ℝ,
      (Spec.quarkL q om 0 m (Complex.I * Spec.en q m) z / Spec.den (Complex.I * Spec.en q m) q om 0 m z
        + Spec.quarkL q om 0 m (-(Complex.I * Spec.en q m)) z / Spec.den (-(Complex.I * Spec.en q m)) q om 0 m z)
      = -4 * energy q m ^ 2 / (om ^ 2 + 4 * energy q m ^ 2) + (4 * q ^ 2 / (om ^ 2 + 4 * energy q m ^ 2)) * (z : ℂ) ^ 2 := by
    intro z
    simp only [Spec.quarkL, Spec.longitudinal, Spec.transverse, den_pos0, den_neg0, sub_self, e1, e2]
    rw [e3]
    have hI : Complex.I ^ 2 = -1 := Complex.I_sq
    have hI3 : Complex.I ^ 3 = -Complex.I := by rw [pow_succ, hI]; ring
    field_simp
    ring_nf
    simp only [hI, hI3]
    ring
  simp only [key]
  rw [int_quad]
  ring

theorem quark0_int_t {q : ℝ} {om : ℂ} {m : ℂ} (ho : om ≠ 0) (hE : energy q m ≠ 0) (h : Spec.RegularLeg q om 0 m m) :
    ∫ z in (-1 : ℝ)..1,
      (Spec.quarkT q om 0 m (Complex.I * Spec.en q m) z / Spec.den (Complex.I * Spec.en q m) q om 0 m z
        + Spec.quarkT q om 0 m (-(Complex.I * Spec.en q m)) z / Spec.den (-(Complex.I * Spec.en q m)) q om 0 m z)
     = 8 / 3 * (q ^ 2 - 3 * energy q m ^ 2) / (om ^ 2 + 4 * energy q m ^ 2) := by
  obtain ⟨h1, h2, e1, e2, e3⟩ := quark0_den ho h
  have key : ∀ z : ℝ,
      (Spec.quarkT q om 0 m (Complex.I * Spec.en q m) z / Spec.den (Complex.I * Spec.en q m) q om 0 m z
        + Spec.quarkT q om 0 m (-(Complex.I * Spec.en q m)) z / Spec.den (-(Complex.I * Spec.en q m)) q om 0 m z)
      = (2 * q ^ 2 - 4 * energy q m ^ 2) / (om ^ 2 + 4 * energy q m ^ 2) + (-2 * q ^ 2 / (om ^ 2 + 4 * energy q m ^ 2)) * (z : ℂ) ^ 2 := by
    intro z
    simp only [Spec.quarkT, Spec.longitudinal, Spec.transverse, den_pos0, den_neg0, sub_self, e1, e2]
    rw [e3]
    have hI : Complex.I ^ 2 = -1 := Complex.I_sq
    have hI3 : Complex.I ^ 3 = -Complex.I := by rw [pow_succ, hI]; ring
    field_simp
    ring_nf
    simp only [hI, hI3]
    ring
  simp only [key]
  rw [int_quad]
  ring

/-- **C63**: `zero_momentum::polarization_quark_l_thermal_part_landau_i`. -/
theorem C63_zero_momentum_quark_l (k : Consts ℝ) {q : ℝ} {om : T} {mq : ℝ} (ho : om ≠ 0) (hE : energy q mq ≠ 0)
    (h : Spec.Regular q (toC om) 0 mq mq) (beta : ℝ) (mu : ℝ) :
    toC (gluon.thermal.zero_momentum.polarization_quark_l_thermal_part_landau_i k q om mq beta mu) =
      Spec.quarkLoop (Spec.quarkL q (toC om) 0 mq) k.nc (fermi_distribution_double (energy q mq) beta mu) q (toC om) 0 mq := by
  have ho' : toC om ≠ 0 := fun h0 => ho (toC_injective (h0.trans toC_zero.symm))
  have hE' : energy q (mq : ℂ) ≠ 0 := by rw [← ofReal_energy]; exact_mod_cast hE
  rw [Spec.quarkLoop, quark0_int_l ho' hE' h.1, spec_en]
  simp only [gluon.thermal.zero_momentum.polarization_quark_l_thermal_part_landau_i, map_add, map_sub, map_inv₀, map_mul, toC_ofR, toC_neg', map_div₀, toC_real, toC_complex, ofR_complex, Complex.ofReal_mul, Complex.ofReal_add, Complex.ofReal_sub, Complex.ofReal_div, Complex.ofReal_neg, Complex.ofReal_inv, Complex.ofReal_ofNat, Complex.ofReal_natCast, Complex.ofReal_one, ofReal_energy]
  generalize fermi_distribution_double (energy q mq) beta mu = n
  rw [pi2_cast]
  obtain ⟨om, hom⟩ : ∃ x, x = toC om := ⟨_, rfl⟩
  simp only [← hom] at *
  generalize energy q (mq : ℂ) = E at *
  rw [show om * om + 4 * (E * E) = om ^ 2 + 4 * E ^ 2 by ring]
  generalize om ^ 2 + 4 * E ^ 2 = s
  field_simp
  ring

/-- **C63**: `zero_momentum::polarization_quark_t_thermal_part_landau_i`. -/
theorem C63_zero_momentum_quark_t (k : Consts ℝ) {q : ℝ} {om : T} {mq : ℝ} (ho : om ≠ 0) (hE : energy q mq ≠ 0)
    (h : Spec.Regular q (toC om) 0 mq mq) (beta : ℝ) (mu : ℝ) :
    toC (gluon.thermal.zero_momentum.polarization_quark_t_thermal_part_landau_i k q om mq beta mu) =
      Spec.quarkLoop (Spec.quarkT q (toC om) 0 mq) k.nc (fermi_distribution_double (energy q mq) beta mu) q (toC om) 0 mq := by
  have ho' : toC om ≠ 0 := fun h0 => ho (toC_injective (h0.trans toC_zero.symm))
  have hE' : energy q (mq : ℂ) ≠ 0 := by rw [← ofReal_energy]; exact_mod_cast hE
  rw [Spec.quarkLoop, quark0_int_t ho' hE' h.1, spec_en]
  simp only [gluon.thermal.zero_momentum.polarization_quark_t_thermal_part_landau_i, gluon.thermal.zero_momentum.polarization_quark_l_thermal_part_landau_i, map_add, map_sub, map_inv₀, map_mul, toC_ofR, toC_neg', map_div₀, toC_real, toC_complex, ofR_complex, Complex.ofReal_mul, Complex.ofReal_add, Complex.ofReal_sub, Complex.ofReal_div, Complex.ofReal_neg, Complex.ofReal_inv, Complex.ofReal_ofNat, Complex.ofReal_natCast, Complex.ofReal_one, ofReal_energy]
  generalize fermi_distribution_double (energy q mq) beta mu = n
  rw [pi2_cast]
  obtain ⟨om, hom⟩ : ∃ x, x = toC om := ⟨_, rfl⟩
  simp only [← hom] at *
  generalize energy q (mq : ℂ) = E at *
  rw [show om * om + 4 * (E * E) = om ^ 2 + 4 * E ^ 2 by ring]
  generalize om ^ 2 + 4 * E ^ 2 = s
  field_simp
  ring

/-- **C63**: `polarization_quark_l_thermal_part_zero_temp_landau_i` is the longitudinal projection of the quark loop. -/
theorem C63_quark_l_zero_temp (k : Consts ℝ) {q : ℝ} {om : T1} {p : T2} {mq : ℝ} (hq : q ≠ 0) (hp : p ≠ 0) (ho : om ≠ 0)
    (hs : toC om ^ 2 + toC p ^ 2 ≠ 0) (h : Spec.Regular q (toC om) (toC p) mq mq) (mu : ℝ) :
    gluon.thermal.polarization_quark_l_thermal_part_zero_temp_landau_i k q om p mq mu =
      Spec.quarkLoop (Spec.quarkL q (toC om) (toC p) mq) k.nc (fermi_distribution_double_zero_temp (energy q mq) mu) q (toC om) (toC p) mq := by
  have hp' : toC p ≠ 0 := fun h0 => hp (toC_injective (h0.trans toC_zero.symm))
  have ho' : toC om ≠ 0 := fun h0 => ho (toC_injective (h0.trans toC_zero.symm))
  have hq' : (q : ℂ) ≠ 0 := by exact_mod_cast hq
  rw [Spec.quarkLoop, quark_int_l hq hp' ho' hs h.1, spec_en]
  simp only [gluon.thermal.polarization_quark_l_thermal_part_zero_temp_landau_i, tlog_same_mass_eq, map_add, map_sub, map_inv₀, map_mul, toC_ofR, toC_neg', map_div₀, toC_real, toC_complex, ofR_complex, Complex.ofReal_mul, Complex.ofReal_add, Complex.ofReal_sub, Complex.ofReal_div, Complex.ofReal_neg, Complex.ofReal_inv, Complex.ofReal_ofNat, Complex.ofReal_natCast, Complex.ofReal_one, ofReal_energy]
  generalize fermi_distribution_double_zero_temp (energy q mq) mu = n
  rw [pi2_cast]
  obtain ⟨om, hom⟩ : ∃ x, x = toC om := ⟨_, rfl⟩
  obtain ⟨p, hpp⟩ : ∃ x, x = toC p := ⟨_, rfl⟩
  simp only [← hom, ← hpp] at *
  generalize TL q om p (energy q (mq : ℂ)) 0 = L1
  generalize TL q (-om) p (energy q (mq : ℂ)) 0 = L2
  generalize energy q (mq : ℂ) = E
  rw [show om * om + p * p = om ^ 2 + p ^ 2 by ring]
  generalize om ^ 2 + p ^ 2 = s
  ring

/-- **C63**: `polarization_quark_t_thermal_part_zero_temp_landau_i` is the transverse projection of the quark loop. -/
theorem C63_quark_t_zero_temp (k : Consts ℝ) {q : ℝ} {om : T1} {p : ℝ} {mq : ℝ} (hq : q ≠ 0) (hp : p ≠ 0)
    (h : Spec.Regular q (toC om) p mq mq) (mu : ℝ) :
    gluon.thermal.polarization_quark_t_thermal_part_zero_temp_landau_i k q om p mq mu =
      Spec.quarkLoop (Spec.quarkT q (toC om) p mq) k.nc (fermi_distribution_double_zero_temp (energy q mq) mu) q (toC om) p mq := by
  have hp' : (p : ℂ) ≠ 0 := by exact_mod_cast hp
  have hq' : (q : ℂ) ≠ 0 := by exact_mod_cast hq
  rw [Spec.quarkLoop, quark_int_t hq hp' h.1, spec_en]
  simp only [gluon.thermal.polarization_quark_t_thermal_part_zero_temp_landau_i, tlog_same_mass_eq, map_add, map_sub, map_inv₀, map_mul, toC_ofR, toC_neg', map_div₀, toC_real, toC_complex, ofR_complex, Complex.ofReal_mul, Complex.ofReal_add, Complex.ofReal_sub, Complex.ofReal_div, Complex.ofReal_neg, Complex.ofReal_inv, Complex.ofReal_ofNat, Complex.ofReal_natCast, Complex.ofReal_one, ofReal_energy]
  generalize fermi_distribution_double_zero_temp (energy q mq) mu = n
  rw [pi2_cast]
  obtain ⟨om, hom⟩ : ∃ x, x = toC om := ⟨_, rfl⟩
  simp only [← hom] at *
  generalize TL q om p (energy q (mq : ℂ)) 0 = L1
  generalize TL q (-om) p (energy q (mq : ℂ)) 0 = L2
  generalize energy q (mq : ℂ) = E
  field_simp
  ring

/-- **C63**: `zero_momentum::polarization_quark_l_thermal_part_zero_temp_landau_i`. -/
theorem C63_zero_momentum_quark_l_zero_temp (k : Consts ℝ) {q : ℝ} {om : T} {mq : ℝ} (ho : om ≠ 0) (hE : energy q mq ≠ 0)
    (h : Spec.Regular q (toC om) 0 mq mq) (mu : ℝ) :
    toC (gluon.thermal.zero_momentum.polarization_quark_l_thermal_part_zero_temp_landau_i k q om mq mu) =
      Spec.quarkLoop (Spec.quarkL q (toC om) 0 mq) k.nc (fermi_distribution_double_zero_temp (energy q mq) mu) q (toC om) 0 mq := by
  have ho' : toC om ≠ 0 := fun h0 => ho (toC_injective (h0.trans toC_zero.symm))
  have hE' : energy q (mq : ℂ) ≠ 0 := by rw [← ofReal_energy]; exact_mod_cast hE
  rw [Spec.quarkLoop, quark0_int_l ho' hE' h.1, spec_en]
  simp only [gluon.thermal.zero_momentum.polarization_quark_l_thermal_part_zero_temp_landau_i, map_add, map_sub, map_inv₀, map_mul, toC_ofR, toC_neg', map_div₀, toC_real, toC_complex, ofR_complex, Complex.ofReal_mul, Complex.ofReal_add, Complex.ofReal_sub, Complex.ofReal_div, Complex.ofReal_neg, Complex.ofReal_inv, Complex.ofReal_ofNat, Complex.ofReal_natCast, Complex.ofReal_one, ofReal_energy]
  generalize fermi_distribution_double_zero_temp (energy q mq) mu = n
  rw [pi2_cast]
  obtain ⟨om, hom⟩ : ∃ x, x = toC om := ⟨_, rfl⟩
  simp only [← hom] at *
  generalize energy q (mq : ℂ) = E at *
  rw [show om * om + 4 * (E * E) = om ^ 2 + 4 * E ^ 2 by ring]
  generalize om ^ 2 + 4 * E ^ 2 = s
  field_simp
  ring

/-- **C63**: `zero_momentum::polarization_quark_t_thermal_part_zero_temp_landau_i`. -/
theorem C63_zero_momentum_quark_t_zero_temp (k : Consts ℝ) {q : ℝ} {om : T} {mq : ℝ} (ho : om ≠ 0) (hE : energy q mq ≠ 0)
    (h : Spec.Regular q (toC om) 0 mq mq) (mu : ℝ) :
    toC (gluon.thermal.zero_momentum.polarization_quark_t_thermal_part_zero_temp_landau_i k q om mq mu) =
      Spec.quarkLoop (Spec.quarkT q (toC om) 0 mq) k.nc (fermi_distribution_double_zero_temp (energy q mq) mu) q (toC om) 0 mq := by
  have ho' : toC om ≠ 0 := fun h0 => ho (toC_injective (h0.trans toC_zero.symm))
  have hE' : energy q (mq : ℂ) ≠ 0 := by rw [← ofReal_energy]; exact_mod_cast hE
  rw [Spec.quarkLoop, quark0_int_t ho' hE' h.1, spec_en]
  simp only [gluon.thermal.zero_momentum.polarization_quark_t_thermal_part_zero_temp_landau_i, gluon.thermal.zero_momentum.polarization_quark_l_thermal_part_zero_temp_landau_i, map_add, map_sub, map_inv₀, map_mul, toC_ofR, toC_neg', map_div₀, toC_real, toC_complex, ofR_complex, Complex.ofReal_mul, Complex.ofReal_add, Complex.ofReal_sub, Complex.ofReal_div, Complex.ofReal_neg, Complex.ofReal_inv, Complex.ofReal_ofNat, Complex.ofReal_natCast, Complex.ofReal_one, ofReal_energy]
  generalize fermi_distribution_double_zero_temp (energy q mq) mu = n
  rw [pi2_cast]
  obtain ⟨om, hom⟩ : ∃ x, x = toC om := ⟨_, rfl⟩
  simp only [← hom] at *
  generalize energy q (mq : ℂ) = E at *
  rw [show om * om + 4 * (E * E) = om ^ 2 + 4 * E ^ 2 by ring]
  generalize om ^ 2 + 4 * E ^ 2 = s
  field_simp
  ring


/-! ### The quark loop at zero frequency -/

theorem quarkM_int_l {q : ℝ} {p : ℂ} {m : ℂ} (hq : q ≠ 0) (hp : p ≠ 0) (h : Spec.RegularLeg q 0 p m m) :
    ∫ z in (-1 : ℝ)..1,
      (Spec.quarkL q 0 p m (Complex.I * Spec.en q m) z / Spec.den (Complex.I * Spec.en q m) q 0 p m z
        + Spec.quarkL q 0 p m (-(Complex.I * Spec.en q m)) z / Spec.den (-(Complex.I * Spec.en q m)) q 0 p m z)
     = -2 * (1 - (p ^ 2 - 4 * energy q m ^ 2) * TL q 0 p (energy q m) 0 / (4 * q * p)) := by
  have hq' : (q : ℂ) ≠ 0 := by exact_mod_cast hq
  have hb : 2 * (q : ℂ) * p ≠ 0 := mul_ne_zero (mul_ne_zero two_ne_zero hq') hp
  have hpp := h.poles
  rw [sub_self] at hpp
  set E := energy q m with hE
  rw [int_pole2 hb hpp (p ^ 2 / 2 - 2 * E ^ 2) (-1 / 2) 0 (p ^ 2 / 2 - 2 * E ^ 2) (-1 / 2) 0, TL_eq]
  · simp only [neg_zero]
    generalize Complex.log ((R0 0 p E 0 + 2 * q * p) / (R0 0 p E 0 - 2 * q * p)) = L1
    field_simp
    ring
  · intro z hz
    simp only [Spec.quarkL]
    rw [den_pos, den_neg, sub_self, ← hE, spec_en, ← hE]
    obtain ⟨h1, h2⟩ := hpp z hz
    simp only [Spec.longitudinal]
    rw [neg_zero] at h2 ⊢
    generalize R0 0 p E 0 + 2 * q * p * z = D at *
    have e1 : (p * (Complex.I * E) - 0 * (q * (z : ℂ))) ^ 2 / (0 ^ 2 + p ^ 2) = -E ^ 2 := by
      field_simp
      linear_combination E ^ 2 * p ^ 2 * Complex.I_sq
    have e2 : (p * -(Complex.I * E) - 0 * (q * (z : ℂ))) ^ 2 / (0 ^ 2 + p ^ 2) = -E ^ 2 := by
      field_simp
      linear_combination E ^ 2 * p ^ 2 * Complex.I_sq
    rw [e1, e2]
    field_simp
    ring

theorem TL_zero_same {q p m : ℝ} (h : Spec.RegularLeg q 0 p m m) (en : ℂ) : TL q 0 p en 0 = ZL q p 0 := by
  have := TL_zero_om h en
  rwa [sub_self] at this

/-- **C63**: `zero_matsubara::polarization_quark_l_thermal_part_landau_i`, off the singular momentum `2q = p`. -/
theorem C63_zero_matsubara_quark_l (k : Consts ℝ) {q p : ℝ} {mq : ℝ} (hq : q ≠ 0) (hp : p ≠ 0)
    (h : Spec.Regular q 0 p mq mq) (beta : ℝ) (mu : ℝ) :
    ((gluon.thermal.zero_matsubara.polarization_quark_l_thermal_part_landau_i k q p mq beta mu : ℝ) : ℂ) =
      Spec.quarkLoop (Spec.quarkL q 0 p mq) k.nc (fermi_distribution_double (energy q mq) beta mu) q 0 p mq := by
  have hp' : (p : ℂ) ≠ 0 := by exact_mod_cast hp
  have hq' : (q : ℂ) ≠ 0 := by exact_mod_cast hq
  rw [Spec.quarkLoop, quarkM_int_l hq hp' h.1, spec_en]
  simp only [neg_zero, TL_zero_same h.1]
  simp only [gluon.thermal.zero_matsubara.polarization_quark_l_thermal_part_landau_i, ofR_real, Complex.ofReal_mul, Complex.ofReal_add, Complex.ofReal_sub, Complex.ofReal_div, Complex.ofReal_neg, Complex.ofReal_inv, Complex.ofReal_ofNat, Complex.ofReal_natCast, Complex.ofReal_one, ofReal_energy, z0_tlog_same_mass_eq]
  generalize fermi_distribution_double (energy q mq) beta mu = n
  rw [pi2_cast]
  generalize ZL q p 0 = L1
  generalize energy q (mq : ℂ) = E
  field_simp
  ring

/-- **C63**: `zero_matsubara::polarization_quark_t_thermal_part_landau_i`, off the singular momentum `2q = p`. -/
theorem C63_zero_matsubara_quark_t (k : Consts ℝ) {q p : ℝ} {mq : ℝ} (hq : q ≠ 0) (hp : p ≠ 0)
    (h : Spec.Regular q 0 p mq mq) (beta : ℝ) (mu : ℝ) :
    ((gluon.thermal.zero_matsubara.polarization_quark_t_thermal_part_landau_i k q p mq beta mu : ℝ) : ℂ) =
      Spec.quarkLoop (Spec.quarkT q 0 p mq) k.nc (fermi_distribution_double (energy q mq) beta mu) q 0 p mq := by
  have hp' : (p : ℂ) ≠ 0 := by exact_mod_cast hp
  have hq' : (q : ℂ) ≠ 0 := by exact_mod_cast hq
  rw [Spec.quarkLoop, quark_int_t hq hp' h.1, spec_en]
  simp only [neg_zero, TL_zero_same h.1]
  simp only [gluon.thermal.zero_matsubara.polarization_quark_t_thermal_part_landau_i, ofR_real, Complex.ofReal_mul, Complex.ofReal_add, Complex.ofReal_sub, Complex.ofReal_div, Complex.ofReal_neg, Complex.ofReal_inv, Complex.ofReal_ofNat, Complex.ofReal_natCast, Complex.ofReal_one, ofReal_energy, z0_tlog_same_mass_eq]
  generalize fermi_distribution_double (energy q mq) beta mu = n
  rw [pi2_cast]
  generalize ZL q p 0 = L1
  generalize energy q (mq : ℂ) = E
  field_simp
  ring

/-- **C63**: `zero_matsubara::polarization_quark_l_thermal_part_zero_temp_landau_i`, off the singular momentum `2q = p`. -/
theorem C63_zero_matsubara_quark_l_zero_temp (k : Consts ℝ) {q p : ℝ} {mq : ℝ} (hq : q ≠ 0) (hp : p ≠ 0)
    (h : Spec.Regular q 0 p mq mq) (mu : ℝ) :
    ((gluon.thermal.zero_matsubara.polarization_quark_l_thermal_part_zero_temp_landau_i k q p mq mu : ℝ) : ℂ) =
      Spec.quarkLoop (Spec.quarkL q 0 p mq) k.nc (fermi_distribution_double_zero_temp (energy q mq) mu) q 0 p mq := by
  have hp' : (p : ℂ) ≠ 0 := by exact_mod_cast hp
  have hq' : (q : ℂ) ≠ 0 := by exact_mod_cast hq
  rw [Spec.quarkLoop, quarkM_int_l hq hp' h.1, spec_en]
  simp only [neg_zero, TL_zero_same h.1]
  simp only [gluon.thermal.zero_matsubara.polarization_quark_l_thermal_part_zero_temp_landau_i, ofR_real, Complex.ofReal_mul, Complex.ofReal_add, Complex.ofReal_sub, Complex.ofReal_div, Complex.ofReal_neg, Complex.ofReal_inv, Complex.ofReal_ofNat, Complex.ofReal_natCast, Complex.ofReal_one, ofReal_energy, z0_tlog_same_mass_eq]
  generalize fermi_distribution_double_zero_temp (energy q mq) mu = n
  rw [pi2_cast]
  generalize ZL q p 0 = L1
  generalize energy q (mq : ℂ) = E
  field_simp
  ring

/-- **C63**: `zero_matsubara::polarization_quark_t_thermal_part_zero_temp_landau_i`, off the singular momentum `2q = p`. -/
theorem C63_zero_matsubara_quark_t_zero_temp (k : Consts ℝ) {q p : ℝ} {mq : ℝ} (hq : q ≠ 0) (hp : p ≠ 0)
    (h : Spec.Regular q 0 p mq mq) (mu : ℝ) :
    ((gluon.thermal.zero_matsubara.polarization_quark_t_thermal_part_zero_temp_landau_i k q p mq mu : ℝ) : ℂ) =
      Spec.quarkLoop (Spec.quarkT q 0 p mq) k.nc (fermi_distribution_double_zero_temp (energy q mq) mu) q 0 p mq := by
  have hp' : (p : ℂ) ≠ 0 := by exact_mod_cast hp
  have hq' : (q : ℂ) ≠ 0 := by exact_mod_cast hq
  rw [Spec.quarkLoop, quark_int_t hq hp' h.1, spec_en]
  simp only [neg_zero, TL_zero_same h.1]
  simp only [gluon.thermal.zero_matsubara.polarization_quark_t_thermal_part_zero_temp_landau_i, ofR_real, Complex.ofReal_mul, Complex.ofReal_add, Complex.ofReal_sub, Complex.ofReal_div, Complex.ofReal_neg, Complex.ofReal_inv, Complex.ofReal_ofNat, Complex.ofReal_natCast, Complex.ofReal_one, ofReal_energy, z0_tlog_same_mass_eq]
  generalize fermi_distribution_double_zero_temp (energy q mq) mu = n
  rw [pi2_cast]
  generalize ZL q p 0 = L1
  generalize energy q (mq : ℂ) = E
  field_simp
  ring

/-! ### The hypotheses can be met -/

/-- Regularity at zero frequency: below the singular momentum. -/
theorem C62_regular_zero_matsubara {q p m1 m2 : ℝ} (h : 2 * |q * p| < |p * p + (m2 * m2 - m1 * m1)|)
    (h' : 2 * |q * p| < |p * p + (m1 * m1 - m2 * m2)|) : Spec.Regular q 0 p m1 m2 := by
  have key : ∀ m m' : ℝ, 2 * |q * p| < |p * p + (m' * m' - m * m)| → Spec.RegularLeg q 0 p m m' := by
    intro m m' hm z hz
    rw [den_pos, den_neg, neg_zero, and_self]
    have e : R0 0 p (energy q (m : ℂ)) ((m' : ℂ) * m' - m * m) + 2 * q * p * z
        = ((p * p + (m' * m' - m * m) + 2 * (q * p) * z : ℝ) : ℂ) := by simp only [R0]; push_cast; ring
    rw [e]
    intro h0
    have h0' : p * p + (m' * m' - m * m) + 2 * (q * p) * z = 0 := by exact_mod_cast h0
    have h1 : |p * p + (m' * m' - m * m)| = 2 * |q * p| * |z| := by
      rw [show p * p + (m' * m' - m * m) = -(2 * (q * p) * z) by linarith, abs_neg, abs_mul, abs_mul, abs_two]
    have hz1 : |z| ≤ 1 := abs_le.2 hz
    have : 2 * |q * p| * |z| ≤ 2 * |q * p| := mul_le_of_le_one_right (by positivity) hz1
    linarith
  exact ⟨key m1 m2 h, key m2 m1 h'⟩

example : Spec.Regular 1 0 ((3 : ℝ) : ℂ) ((1 : ℝ) : ℂ) ((1 : ℝ) : ℂ) := by
  apply C62_regular_zero_matsubara <;> norm_num

example : Spec.Regular 1 ((2 : ℝ) : ℂ) ((3 : ℝ) : ℂ) ((1 : ℝ) : ℂ) ((5 : ℝ) : ℂ) :=
  C62_regular_real one_pos two_ne_zero 3 1 5

end Qcd
