import Verif.Lemmas.ThermalToC

/-! # Normal form of the logarithms occurring in the thermal integrands

All the logarithms of the integrands, written with complex arguments and a single definition. -/

set_option linter.unusedSimpArgs false

namespace Qcd
open thermal
variable {T T1 T2 T3 T4 : Type} [Num T] [Num T1] [Num T2] [Num T3] [Num T4]

theorem toC_zero : toC (0 : T) = 0 := map_zero (Num.toC : T →+* ℂ)
theorem toC_mul' (a b : T) : toC (a * b) = toC a * toC b := map_mul (Num.toC : T →+* ℂ) a b
theorem toC_neg' (a : T) : toC (-a) = -toC a := map_neg (Num.toC : T →+* ℂ) a

theorem ofReal_bose (x beta : ℝ) : ((bose_distribution_zero_chempot x beta : ℝ) : ℂ)
    = bose_distribution_zero_chempot (x : ℂ) beta := toC_bose x beta

theorem energy_zero_real {q : ℝ} (hq : 0 ≤ q) : energy q (0 : ℝ) = q := by
  simp [energy, energy_squared, Real.sqrt_mul_self hq]

theorem energy_zero {q : ℝ} (hq : 0 ≤ q) : energy q (0 : ℂ) = (q : ℂ) := by
  have := toC_energy (T := ℝ) q 0
  rw [energy_zero_real hq] at this
  simpa using this.symm

/-- The propagator denominator `ω² + 2iωE + p² + δ`. -/
noncomputable def R0 (om p en d : ℂ) : ℂ := om * om + om * (en * 2 * Complex.I) + (p * p + d)

/-- `log((R + 2pq)/(R - 2pq))`. -/
noncomputable def TL (q om p en d : ℂ) : ℂ :=
  Complex.log ((p * q * 2 + R0 om p en d) / (-(p * q * 2) + R0 om p en d))

/-- `½ log(((R + 2pq)/(R - 2pq))²)` at zero frequency. -/
noncomputable def ZL (q p d : ℂ) : ℂ :=
  Complex.log (((p * p + d + q * 2 * p) / (p * p + d - q * 2 * p)) *
    ((p * p + d + q * 2 * p) / (p * p + d - q * 2 * p))) / 2

theorem r_0_eq (om : T1) (p : T2) (en : T3) (d : T4) :
    r_0 om p en d = R0 (toC om) (toC p) (toC en) (toC d) := by
  simp only [r_0, R0, map_mul, toC_ofR]; simp

theorem r_0_same_mass_eq (om : T1) (p : T2) (en : T3) :
    r_0_same_mass om p en = R0 (toC om) (toC p) (toC en) 0 := by
  simp only [r_0_same_mass, R0, map_mul, toC_ofR]; simp; ring

theorem tlog_eq (q : ℝ) (om : T1) (p : T2) (en : T3) (d : T4) :
    tlog q om p en d = TL q (toC om) (toC p) (toC en) (toC d) := by
  simp only [tlog, TL, r_0_eq, map_mul, map_neg, toC_ofR, ln_complex]; simp

theorem tlog_same_mass_eq (q : ℝ) (om : T1) (p : T2) (en : T3) :
    tlog_same_mass q om p en = TL q (toC om) (toC p) (toC en) 0 := by
  simp only [tlog_same_mass, TL, r_0_same_mass_eq, map_mul, map_neg, toC_ofR, ln_complex]; simp

theorem tlog_zero_mass_eq (q : ℝ) (om : T1) (p : T2) :
    tlog_zero_mass q om p = TL q (toC om) (toC p) q 0 := by
  simp only [tlog_zero_mass, TL, r_0_same_mass_eq, map_mul, map_neg, toC_ofR, ln_complex]; simp

/-- The prefactor of the longitudinal logarithm. -/
noncomputable def PF (om p en d : ℂ) : ℂ :=
  om * om + om * (en * 2 * Complex.I) + d + p * p * (om⁻¹ * (en * 2 * Complex.I) + 1)

theorem tlog_l_eq (q : ℝ) (om : T1) (p : T2) (en : T3) (d : T4) :
    tlog_l q om p en d = TL q (toC om) (toC p) (toC en) (toC d) *
      PF (toC om) (toC p) (toC en) (toC d) * PF (toC om) (toC p) (toC en) (toC d) := by
  simp only [tlog_l, tlog_eq, PF, map_mul, map_neg, map_inv₀, toC_ofR]; simp

theorem tlog_l_same_mass_eq (q : ℝ) (om : T1) (p : T2) (en : T3) :
    tlog_l_same_mass q om p en = TL q (toC om) (toC p) (toC en) 0 *
      PF (toC om) (toC p) (toC en) 0 * PF (toC om) (toC p) (toC en) 0 := by
  simp only [tlog_l_same_mass, tlog_same_mass_eq, PF, map_mul, map_neg, map_inv₀, toC_ofR]; simp

theorem tlog_l_zero_mass_eq (q : ℝ) (om : T1) (p : T2) :
    tlog_l_zero_mass q om p = TL q (toC om) (toC p) q 0 *
      PF (toC om) (toC p) q 0 * PF (toC om) (toC p) q 0 := by
  simp only [tlog_l_zero_mass, tlog_zero_mass_eq, PF, map_mul, map_neg, map_inv₀, toC_ofR]; simp

theorem tlog_t_eq (q : ℝ) (om : T1) (p : ℝ) (en : T3) (d : T4) :
    tlog_t q om p en d = (R0 (toC om) p (toC en) (toC d) + q * 2 * p) *
      (R0 (toC om) p (toC en) (toC d) - q * 2 * p) * TL q (toC om) p (toC en) (toC d) := by
  simp only [tlog_t, tlog_eq, r_0_eq]; simp

theorem tlog_t_same_mass_eq (q : ℝ) (om : T1) (p : ℝ) (en : T3) :
    tlog_t_same_mass q om p en = (R0 (toC om) p (toC en) 0 + q * 2 * p) *
      (R0 (toC om) p (toC en) 0 - q * 2 * p) * TL q (toC om) p (toC en) 0 := by
  simp only [tlog_t_same_mass, tlog_same_mass_eq, r_0_same_mass_eq]; simp

theorem tlog_t_zero_mass_eq (q : ℝ) (om : T1) (p : ℝ) :
    tlog_t_zero_mass q om p = (R0 (toC om) p q 0 + q * 2 * p) *
      (R0 (toC om) p q 0 - q * 2 * p) * TL q (toC om) p q 0 := by
  simp only [tlog_t_zero_mass, tlog_zero_mass_eq, r_0_same_mass_eq]; simp

theorem zm_r_0_eq (om : T1) (en : T2) (d : T3) :
    zero_momentum.r_0 om en d = R0 (toC om) 0 (toC en) (toC d) := by
  simp only [zero_momentum.r_0, R0, map_mul, toC_ofR]; simp

theorem zm_r_0_same_mass_eq (om : T1) (en : T2) :
    zero_momentum.r_0_same_mass om en = R0 (toC om) 0 (toC en) 0 := by
  simp only [zero_momentum.r_0_same_mass, R0, map_mul, toC_ofR]; simp

theorem z0_r_0_eq (p : ℝ) (d : T) : toC (zero_matsubara.r_0 p d) = p * p + toC d := by
  simp only [zero_matsubara.r_0, map_add, toC_ofR]; push_cast; ring

theorem z0_r_0_C (p : ℝ) (d : ℂ) : zero_matsubara.r_0 p d = p * p + d := by
  simp only [zero_matsubara.r_0]; simp; ring

theorem z0_r_0_R (p : ℝ) (d : ℝ) : ((zero_matsubara.r_0 p d : ℝ) : ℂ) = p * p + d := z0_r_0_eq p d

theorem z0_tlog_eq (q p : ℝ) (d : T) : zero_matsubara.tlog q p d = ZL q p (toC d) := by
  simp only [zero_matsubara.tlog, ZL, map_mul, map_div₀, map_sub, map_add, z0_r_0_eq, toC_ofR, ln_complex, ofR_complex]
  push_cast; rfl

theorem z0_tlog_same_mass_eq (q p : ℝ) : ((zero_matsubara.tlog_same_mass q p : ℝ) : ℂ) = ZL q p 0 := by
  simp only [zero_matsubara.tlog_same_mass, ZL, ln_real]
  rw [Complex.ofReal_div, Complex.ofReal_log (mul_self_nonneg _)]
  by_cases hp : p = 0
  · subst hp
    by_cases hq : q = 0
    · subst hq; simp
    · have hq' : (q : ℂ) ≠ 0 := Complex.ofReal_ne_zero.2 hq
      have : (2 * q + 0) / (2 * -q + 0) = (-1 : ℝ) := by field_simp; ring
      rw [this]; norm_num
  · have hp' : (p : ℂ) ≠ 0 := Complex.ofReal_ne_zero.2 hp
    have : (((2 * q + p) / (2 * -q + p) : ℝ) : ℂ) = (p * p + 0 + q * 2 * p) / (p * p + 0 - q * 2 * p) := by
      push_cast
      rw [show (p * p + 0 + q * 2 * p : ℂ) = p * (2 * q + p) by ring,
        show (p * p + 0 - q * 2 * p : ℂ) = p * (2 * -q + p) by ring, mul_div_mul_left _ _ hp']
    rw [Complex.ofReal_mul, this]; norm_num

theorem z0_tlog_zero_mass_eq (q p : ℝ) : ((zero_matsubara.tlog_zero_mass q p : ℝ) : ℂ) = ZL q p 0 :=
  z0_tlog_same_mass_eq q p

theorem z0_tlog_t_eq (q p : ℝ) (d : T) : zero_matsubara.tlog_t q p d =
    (p * p + toC d + q * 2 * p) * (p * p + toC d - q * 2 * p) * ZL q p (toC d) := by
  simp only [zero_matsubara.tlog_t, z0_tlog_eq, map_mul, map_sub, map_add, z0_r_0_eq, toC_ofR]
  push_cast; rfl

theorem z0_tlog_t_same_mass_eq (q p : ℝ) : ((zero_matsubara.tlog_t_same_mass q p : ℝ) : ℂ) =
    (p * p + q * 2 * p) * (p * p - q * 2 * p) * ZL q p 0 := by
  simp only [zero_matsubara.tlog_t_same_mass]
  push_cast
  rw [z0_tlog_same_mass_eq]; ring

theorem z0_tlog_t_zero_mass_eq (q p : ℝ) : ((zero_matsubara.tlog_t_zero_mass q p : ℝ) : ℂ) =
    (p * p + q * 2 * p) * (p * p - q * 2 * p) * ZL q p 0 := z0_tlog_t_same_mass_eq q p

end Qcd
