import Mathlib.Analysis.SpecialFunctions.NonIntegrable
import Verif.Props.ThermalIntegrals
import Verif.Lemmas.Domination

/-! # C74: the zero-frequency ghost self-energy is not a convergent integral

`ghost::thermal::zero_matsubara::self_energy_thermal_part_landau*` integrate the exact zero-frequency integrand, without the
regulator that the corresponding gluon functions use. That integrand has a simple pole at the loop momentum `(p² + m²)/(2p)`. -/

set_option linter.unusedSimpArgs false

namespace Qcd
open MeasureTheory Filter Topology Set
open consts (Consts Integral)

/-- The momentum of a massless particle that a static gluon of momentum `p` turns into one of mass `m`. -/
noncomputable def ghost_pole (p m : ℝ) : ℝ := (p * p + m * m) / (2 * p)

theorem zm_tlog_re (q p d : ℝ) :
    (thermal.zero_matsubara.tlog q p d).re = Real.log (((d + p * p + q * 2 * p) / (d + p * p - q * 2 * p)) ^ 2) / 2 := by
  simp only [thermal.zero_matsubara.tlog, thermal.zero_matsubara.r_0, ofR_real, ofR_complex, toC_real]
  rw [show ((2 : ℝ) : ℂ) = ((2 : ℝ) : ℂ) from rfl, Complex.div_ofReal_re]
  congr 1
  change (Complex.log _).re = _
  rw [Complex.log_re, Complex.norm_real, Real.norm_eq_abs, Real.log_abs, sq]

theorem isBigO_inv_of_tendsto {f : ℝ → ℝ} {c L : ℝ} (hL : L ≠ 0) (h : Tendsto (fun x => (x - c) * f x) (𝓝[≠] c) (𝓝 L)) :
    (fun x => (x - c)⁻¹) =O[𝓝[≠] c] f := by
  refine Asymptotics.IsBigO.of_bound (2 / |L|) ?_
  have h1 : ∀ᶠ x in 𝓝[≠] c, |L| / 2 < |(x - c) * f x| :=
    h.abs.eventually (lt_mem_nhds (by have := abs_pos.2 hL; linarith))
  filter_upwards [h1, self_mem_nhdsWithin] with x hx hne
  have h2 : 0 < |x - c| := abs_pos.2 (sub_ne_zero.2 hne)
  have h3 := abs_pos.2 hL
  rw [norm_inv, Real.norm_eq_abs, Real.norm_eq_abs, inv_le_iff_one_le_mul₀ h2]
  rw [abs_mul] at hx
  rw [div_mul_eq_mul_div, div_mul_eq_mul_div, le_div_iff₀ h3]
  nlinarith

theorem ghost_pole_residue {p m beta : ℝ} (hp : 0 < p) (hm : m ≠ 0) (hb : 0 < beta) :
    Tendsto (fun q => (q - ghost_pole p m) * (ghost.thermal.zero_matsubara.self_energy_thermal_part_landau_i q p m beta).re)
      (𝓝[≠] (ghost_pole p m)) (𝓝 ((p * p + m * m) ^ 2 * (Real.exp (ghost_pole p m * beta) - 1)⁻¹ / (64 * PI2 * p ^ 2))) := by
  obtain ⟨c, hc⟩ : ∃ c, c = ghost_pole p m := ⟨_, rfl⟩
  rw [← hc]
  have hm2 : 0 < m * m := mul_self_pos.2 hm
  have hc2 : 2 * p * c = p * p + m * m := by rw [hc, ghost_pole]; field_simp
  have hc0 : 0 < c := by rw [hc, ghost_pole]; positivity
  have hP : (0 : ℝ) < PI2 := by unfold PI2; positivity
  have hcm : c * 2 * p = m * m + p * p := by linarith
  let b1 : ℝ → ℝ := fun q => bose_distribution_zero_chempot (energy q m) beta
  let b2 : ℝ → ℝ := fun q => bose_distribution_zero_chempot q beta
  let D1p : ℝ → ℝ := fun q => -m * m + p * p + q * 2 * p
  let D1m : ℝ → ℝ := fun q => -m * m + p * p - q * 2 * p
  let D2p : ℝ → ℝ := fun q => m * m + p * p + q * 2 * p
  let D2m : ℝ → ℝ := fun q => m * m + p * p - q * 2 * p
  let A : ℝ → ℝ := fun q =>
    -(p * p - m * m) / 4 * (-b1 q / (energy q m * 4 * PI2))
    + (p * p * 2 + -(m * m)) / (4 * (m * m)) * (b1 q * (q * q) / (energy q m * 2 * PI2) - b2 q * q / (2 * PI2))
    + -(p * p + m * m) * (p * p) / (2 * (m * m)) * (b1 q * q / energy q m * (Real.log ((D1p q / D1m q) ^ 2) / 2)) / (p * 8 * PI2)
    + p * p * (p * p) / (2 * (m * m)) * (b2 q * (Real.log (((2 * q + p) / (2 * -q + p)) ^ 2) / 2) / (p * 4 * PI2))
    + (p * p + m * m) * (p * p + m * m) / 4 * ((-(b1 q / energy q m * ((D1p q)⁻¹ + (D1m q)⁻¹))
        + ((D2p q)⁻¹ * b2 q / q - b1 q / energy q m * ((D1p q)⁻¹ - (D1m q)⁻¹)) * q / p) / (8 * PI2))
  let B : ℝ → ℝ := fun q => -(p * p + m * m) * (p * p) / (2 * (m * m)) * b2 q / (p * 8 * PI2)
  have key : ∀ᶠ q in 𝓝[≠] c, (q - c) * A q + B q * ((q - c) * (Real.log (D2p q ^ 2) / 2)
        + 1 / (2 * p) * (D2m q * Real.log (D2m q)))
      + (p * p + m * m) ^ 2 * b2 q / (64 * PI2 * p ^ 2) =
      (q - c) * (ghost.thermal.zero_matsubara.self_energy_thermal_part_landau_i q p m beta).re := by
    filter_upwards [self_mem_nhdsWithin, nhdsWithin_le_nhds (lt_mem_nhds hc0)] with q hq hq0
    have hq' : q - c ≠ 0 := sub_ne_zero.2 hq
    have hD : D2m q = -2 * p * (q - c) := by simp only [D2m]; linarith
    have hD0 : D2m q ≠ 0 := by rw [hD]; exact mul_ne_zero (by linarith) hq'
    have hR0 : D2p q ≠ 0 := by simp only [D2p]; positivity
    have hlog : Real.log ((D2p q / D2m q) ^ 2) = Real.log (D2p q ^ 2) - 2 * Real.log (D2m q) := by
      rw [div_pow, Real.log_div (pow_ne_zero _ hR0) (pow_ne_zero _ hD0), Real.log_pow (D2m q) 2]; norm_num
    have hinv : (q - c) * (D2m q)⁻¹ = -(1 / (2 * p)) := by rw [hD]; field_simp
    have hf : (ghost.thermal.zero_matsubara.self_energy_thermal_part_landau_i q p m beta).re =
        A q + B q * (Real.log ((D2p q / D2m q) ^ 2) / 2)
          - (p * p + m * m) * (p * p + m * m) / 4 * ((D2m q)⁻¹ * b2 q / q * q / p) / (8 * PI2) := by
      simp only [ghost.thermal.zero_matsubara.self_energy_thermal_part_landau_i, thermal.zero_matsubara.i_m_0_i,
        thermal.zero_matsubara.i_0_0_i, thermal.zero_matsubara.d_i_m_0_i, thermal.j_m_i, thermal.j_0_i, thermal.d_j_m_i,
        thermal.zero_matsubara.tlog_zero_mass, thermal.zero_matsubara.tlog_same_mass, thermal.zero_matsubara.r_0,
        ofR_real, ofR_complex, toC_real, Complex.add_re, Complex.ofReal_re, Complex.re_ofReal_mul, Complex.div_ofReal_re,
        zm_tlog_re, neg_mul, neg_neg, A, B, b1, b2, D1p, D1m, D2p, D2m]
      change _ = _
      rw [show q * p * 2 = q * 2 * p by ring]
      simp only [show ∀ x : ℝ, NumOps.ln x = Real.log x from fun _ => rfl, div_pow, ← sq]
      ring1
    have hbq : (D2m q)⁻¹ * b2 q / q * q / p = (D2m q)⁻¹ * (b2 q / p) := by field_simp
    have hDl : 1 / (2 * p) * (D2m q * Real.log (D2m q)) = -(q - c) * Real.log (D2m q) := by
      rw [← mul_assoc, hD]; field_simp
    rw [hf, hlog, hbq, hDl]
    clear_value A B D2m D2p b2
    linear_combination ((p * p + m * m) * (p * p + m * m) / 4 * (b2 q / p) / (8 * PI2)) * hinv
  refine Tendsto.congr' key ?_
  have he : ContinuousAt (fun q => energy q m) c := by simp only [energy_real]; fun_prop
  have he0 : energy c m ≠ 0 := ((abs_pos.2 hm).trans_le (abs_le_energy c m)).ne'
  have hee : Real.exp (energy c m * beta) - 1 ≠ 0 :=
    (sub_pos.2 (Real.one_lt_exp_iff.2 (mul_pos ((abs_pos.2 hm).trans_le (abs_le_energy c m)) hb))).ne'
  have hec : Real.exp (c * beta) - 1 ≠ 0 := (sub_pos.2 (Real.one_lt_exp_iff.2 (mul_pos hc0 hb))).ne'
  have hb1 : ContinuousAt b1 c := by
    simp only [b1, boseZ_real]
    fun_prop (disch := assumption)
  have hb2 : ContinuousAt b2 c := by
    simp only [b2, boseZ_real]
    fun_prop (disch := assumption)
  have n1 : -m * m + p * p + c * 2 * p ≠ 0 := by rw [hcm]; nlinarith
  have n2 : -m * m + p * p - c * 2 * p ≠ 0 := by rw [hcm]; nlinarith
  have n3 : m * m + p * p + c * 2 * p ≠ 0 := by positivity
  have n4 : 2 * c + p ≠ 0 := by positivity
  have n5 : 2 * -c + p ≠ 0 := fun h => by
    have h6 : (2 * -c + p) * p = -(m * m) := by linarith
    rw [h, zero_mul] at h6; linarith
  have n6 : c ≠ 0 := hc0.ne'
  have n7 : ((-m * m + p * p + c * 2 * p) / (-m * m + p * p - c * 2 * p)) ^ 2 ≠ 0 := pow_ne_zero _ (div_ne_zero n1 n2)
  have n8 : ((2 * c + p) / (2 * -c + p)) ^ 2 ≠ 0 := pow_ne_zero _ (div_ne_zero n4 n5)
  have n9 : energy c m * 4 * PI2 ≠ 0 := by positivity
  have n10 : energy c m * 2 * PI2 ≠ 0 := by positivity
  have hA : ContinuousAt A c := by
    simp only [A, D1p, D1m, D2p]
    fun_prop (disch := assumption)
  have hB : ContinuousAt B c := by
    simp only [B]
    fun_prop (disch := assumption)
  have hR : ContinuousAt (fun q => Real.log (D2p q ^ 2)) c := by
    simp only [D2p]
    have := pow_ne_zero 2 n3
    fun_prop (disch := assumption)
  have hM : ContinuousAt (fun q => D2m q * Real.log (D2m q)) c :=
    (Real.continuous_mul_log.comp (by fun_prop : Continuous D2m)).continuousAt
  have hM0 : D2m c = 0 := by simp only [D2m]; linarith
  have hall : ContinuousAt (fun q => (q - c) * A q + B q * ((q - c) * (Real.log (D2p q ^ 2) / 2)
        + 1 / (2 * p) * (D2m q * Real.log (D2m q))) + (p * p + m * m) ^ 2 * b2 q / (64 * PI2 * p ^ 2)) c := by
    fun_prop
  have := hall.tendsto
  rw [hM0, sub_self] at this
  simp only [zero_mul, mul_zero, zero_add, add_zero] at this
  exact this.mono_left nhdsWithin_le_nhds

/-- **C74**: for every momentum, mass and temperature the real part of the zero-frequency ghost integrand, which is what
`ghost::thermal::zero_matsubara::self_energy_thermal_part_landau_w_method` integrates, is not integrable around the pole. -/
theorem C74_pole {p m beta : ℝ} (hp : 0 < p) (hm : m ≠ 0) (hb : 0 < beta) {a b : ℝ} (hne : a ≠ b)
    (hab : (p * p + m * m) / (2 * p) ∈ uIcc a b) :
    ¬ IntervalIntegrable (fun q => (ghost.thermal.zero_matsubara.self_energy_thermal_part_landau_i q p m beta).re) volume a b := by
  have hP : (0 : ℝ) < PI2 := by unfold PI2; positivity
  have hm2 : 0 < m * m := mul_self_pos.2 hm
  have hc0 : 0 < ghost_pole p m := by rw [ghost_pole]; positivity
  have hex : 0 < Real.exp (ghost_pole p m * beta) - 1 := sub_pos.2 (Real.one_lt_exp_iff.2 (mul_pos hc0 hb))
  exact not_intervalIntegrable_of_sub_inv_isBigO_punctured
    (isBigO_inv_of_tendsto (by positivity) (ghost_pole_residue hp hm hb)) hne hab

/-- **C74**: so the integral over all loop momenta does not converge. -/
theorem C74_not_integrable {p m beta : ℝ} (hp : 0 < p) (hm : m ≠ 0) (hb : 0 < beta) :
    ¬ IntegrableOn (fun q => (ghost.thermal.zero_matsubara.self_energy_thermal_part_landau_i q p m beta).re) (Ioi 0) := by
  have hm2 : 0 < m * m := mul_self_pos.2 hm
  have hc0 : 0 < (p * p + m * m) / (2 * p) := by positivity
  intro h
  refine C74_pole hp hm hb (a := 0) (b := (p * p + m * m) / (2 * p)) hc0.ne ?_ ?_
  · exact right_mem_uIcc
  · exact (intervalIntegrable_iff_integrableOn_Ioc_of_le hc0.le).2 (h.mono_set Ioc_subset_Ioi_self)

/-- **C74**: nor does that of the function handed to the quadrature on the unit interval. -/
theorem C74_not_integrable_compactified {p m beta : ℝ} (hp : 0 < p) (hm : m ≠ 0) (hb : 0 < beta) :
    ¬ IntervalIntegrable
      (fun t => (ghost.thermal.zero_matsubara.self_energy_thermal_part_landau_i ((1 - t) / t) p m beta).re / (t * t)) volume 0 1 :=
  fun h => C74_not_integrable hp hm hb ((C46_integrable_real _).1 h)

-- a momentum, mass and temperature, and the pole
example : ¬ IntervalIntegrable (fun q => (ghost.thermal.zero_matsubara.self_energy_thermal_part_landau_i q 1 2 3).re) volume 2 3 :=
  C74_pole one_pos two_ne_zero three_pos (by norm_num) (by rw [uIcc_of_le (by norm_num)]; constructor <;> norm_num)

example : ¬ IntegrableOn (fun q => (ghost.thermal.zero_matsubara.self_energy_thermal_part_landau_i q 1 2 3).re) (Ioi 0) :=
  C74_not_integrable one_pos two_ne_zero three_pos

end Qcd
