import Verif.Model.Common
import Mathlib.Analysis.SpecialFunctions.Exp
import Mathlib.Analysis.SpecificLimits.Basic
import Mathlib.Tactic.FieldSimp
import Mathlib.Tactic.Linarith

/-! C13-C16: the Fermi-Dirac and Bose-Einstein distributions. -/

namespace Qcd
open Filter Topology

theorem fermi_real (en beta mu : ℝ) :
    fermi_distribution en beta mu = (Real.exp ((en - mu) * beta) + 1)⁻¹ := by
  simp [fermi_distribution, statistic_distribution_exponential]

theorem bose_real (en beta mu : ℝ) :
    bose_distribution en beta mu = (Real.exp ((en - mu) * beta) - 1)⁻¹ := by
  simp [bose_distribution, statistic_distribution_exponential]

/-! ### C13 -/

/-- **C13** (bounds): strictly between 0 and 1. -/
theorem C13_bounds (en beta mu : ℝ) :
    0 < fermi_distribution en beta mu ∧ fermi_distribution en beta mu < 1 := by
  rw [fermi_real]
  have := Real.exp_pos ((en - mu) * beta)
  exact ⟨by positivity, inv_lt_one_of_one_lt₀ (by linarith)⟩

/-- **C13** (monotonicity): strictly decreasing in energy and increasing in chemical potential. -/
theorem C13_monotone (beta : ℝ) (hb : 0 < beta) :
    (∀ mu : ℝ, StrictAnti (fun en : ℝ => fermi_distribution en beta mu)) ∧
    (∀ en : ℝ, StrictMono (fun mu : ℝ => fermi_distribution en beta mu)) := by
  constructor
  · intro mu a b hab
    simp only [fermi_real]
    apply inv_strictAnti₀ (by positivity)
    gcongr
  · intro en a b hab
    simp only [fermi_real]
    apply inv_strictAnti₀ (by positivity)
    gcongr

/-- **C13** (particle-hole symmetry), for real energies and chemical potentials. -/
theorem C13_particle_hole (en beta mu : ℝ) :
    fermi_distribution en beta mu + fermi_distribution (-en) beta (-mu) = 1 := by
  rw [fermi_real, fermi_real, show (-en - -mu) * beta = -((en - mu) * beta) by ring, Real.exp_neg]
  have := Real.exp_pos ((en - mu) * beta)
  field_simp
  ring

/-- **C13** (particle-hole symmetry) for complex energies, away from the poles. -/
theorem C13_particle_hole_complex (en mu : ℂ) (beta : ℝ)
    (h : Complex.exp ((en - mu) * beta) ≠ -1) :
    fermi_distribution en beta mu + fermi_distribution (-en) beta (-mu) = 1 := by
  simp only [fermi_distribution, statistic_distribution_exponential, up_self, exp_complex,
    ofR_complex, Complex.ofReal_one]
  rw [show (-en - -mu) * (beta : ℂ) = -((en - mu) * beta) by ring, Complex.exp_neg]
  have h0 := Complex.exp_ne_zero ((en - mu) * beta)
  have h1 : Complex.exp ((en - mu) * beta) + 1 ≠ 0 := fun h' => h (eq_neg_of_add_eq_zero_left h')
  have h2 : (Complex.exp ((en - mu) * beta))⁻¹ + 1 ≠ 0 := by
    intro h'
    apply h1
    have := congrArg (· * Complex.exp ((en - mu) * beta)) h'
    simp only [add_mul, inv_mul_cancel₀ h0, one_mul, zero_mul] at this
    rw [add_comm]; exact this
  have h3 : (Complex.exp ((en - mu) * beta))⁻¹ + 1
      = (Complex.exp ((en - mu) * beta) + 1) / Complex.exp ((en - mu) * beta) := by
    field_simp; ring
  rw [h3]
  field_simp
  ring

example : ∃ en : ℂ, Complex.exp ((en - 0) * (1 : ℝ)) ≠ -1 := by
  refine ⟨0, ?_⟩
  norm_num

/-! ### C14 -/

/-- **C14** (finite temperature): the doubled distribution is the sum of the particle and antiparticle
ones, is even in the chemical potential, and at zero chemical potential is twice the
zero-chemical-potential distribution, which is the distribution at `mu = 0`. For every
combination of real and complex energy and chemical potential. -/
theorem C14_consistency {T1 T2 : Type} [Num T1] [Num T2] [Promote T2 T1] (en : T1) (beta : ℝ)
    (mu : T2) :
    fermi_distribution_double en beta mu
      = fermi_distribution en beta mu + fermi_distribution en beta (-mu) ∧
    fermi_distribution_double en beta (-mu) = fermi_distribution_double en beta mu ∧
    fermi_distribution en beta (0 : T2) = fermi_distribution_zero_chempot en beta ∧
    fermi_distribution_double en beta (0 : T2) = 2 * fermi_distribution_zero_chempot en beta ∧
    bose_distribution en beta (0 : T2) = bose_distribution_zero_chempot en beta := by
  refine ⟨rfl, ?_, ?_, ?_, ?_⟩
  · simp only [fermi_distribution_double, neg_neg]
    ring
  · simp [fermi_distribution, fermi_distribution_zero_chempot,
      statistic_distribution_exponential, statistic_distribution_exponential_zero_chempot, up]
  · simp [fermi_distribution_double, fermi_distribution_zero_chempot,
      statistic_distribution_exponential, statistic_distribution_exponential_zero_chempot, up]
    ring
  · simp [bose_distribution, bose_distribution_zero_chempot,
      statistic_distribution_exponential, statistic_distribution_exponential_zero_chempot, up]

/-- **C14** (zero temperature): same for the zero-temperature variants. -/
theorem C14_consistency_zero_temp {T1 T2 : Type} [Num T1] [Num T2] (en : T1) (mu : T2) :
    fermi_distribution_double_zero_temp en mu
      = fermi_distribution_zero_temp en mu + fermi_distribution_zero_temp en (-mu) ∧
    fermi_distribution_double_zero_temp en (-mu) = fermi_distribution_double_zero_temp en mu ∧
    fermi_distribution_double_zero_temp en (0 : T2)
      = 2 * fermi_distribution_zero_temp en (0 : T2) := by
  refine ⟨rfl, ?_, ?_⟩
  · simp only [fermi_distribution_double_zero_temp, neg_neg]
    ring
  · simp only [fermi_distribution_double_zero_temp, neg_zero]
    ring

/-! ### C15 -/

theorem tendsto_exp_mul_atTop {x : ℝ} (hx : 0 < x) :
    Tendsto (fun beta : ℝ => Real.exp (x * beta)) atTop atTop :=
  Real.tendsto_exp_atTop.comp (tendsto_id.const_mul_atTop hx)

theorem tendsto_exp_mul_zero {x : ℝ} (hx : x < 0) :
    Tendsto (fun beta : ℝ => Real.exp (x * beta)) atTop (𝓝 0) :=
  Real.tendsto_exp_atBot.comp (tendsto_id.const_mul_atTop_of_neg hx)

/-- **C15** (Fermi): the zero-temperature distribution is the limit `beta → ∞`, away from `en = mu`. -/
theorem C15_fermi_limit (en mu : ℝ) (h : en ≠ mu) :
    Tendsto (fun beta : ℝ => fermi_distribution en beta mu) atTop
      (𝓝 (fermi_distribution_zero_temp en mu)) := by
  simp only [fermi_real]
  rcases lt_or_gt_of_ne h with h | h
  · have hz : fermi_distribution_zero_temp en mu = 1 := by
      simp [fermi_distribution_zero_temp, re, not_lt.2 h.le]
    rw [hz]
    have h1 := ((tendsto_exp_mul_zero (x := en - mu) (by linarith)).add_const 1).inv₀ (by norm_num)
    simpa using h1
  · have hz : fermi_distribution_zero_temp en mu = 0 := by
      simp [fermi_distribution_zero_temp, re, h]
    rw [hz]
    exact (tendsto_atTop_add_const_right _ 1
      (tendsto_exp_mul_atTop (x := en - mu) (by linarith))).inv_tendsto_atTop

/-- **C15** (negative part): on the Fermi surface the finite-temperature distribution is `1/2` at every
temperature, while the zero-temperature function returns 1. -/
theorem C15_fermi_surface (en : ℝ) :
    (∀ beta, fermi_distribution en beta en = 1 / 2) ∧ fermi_distribution_zero_temp en en = 1 := by
  constructor
  · intro beta
    rw [fermi_real]; norm_num
  · simp [fermi_distribution_zero_temp]

/-- **C15** (doubled): likewise away from `en = mu` and `en = -mu`. -/
theorem C15_double_limit (en mu : ℝ) (h : en ≠ mu) (h' : en ≠ -mu) :
    Tendsto (fun beta : ℝ => fermi_distribution_double en beta mu) atTop
      (𝓝 (fermi_distribution_double_zero_temp en mu)) :=
  (C15_fermi_limit en mu h).add (C15_fermi_limit en (-mu) h')

/-- **C15** (doubled, massive quark): for `en > 0` the zero-temperature doubled distribution is 1 inside
the Fermi sphere `en ≤ |mu|` and 0 outside. -/
theorem C15_double_zero_temp_value (en mu : ℝ) (hen : 0 < en) :
    fermi_distribution_double_zero_temp en mu = if en ≤ |mu| then 1 else 0 := by
  simp only [fermi_distribution_double_zero_temp, fermi_distribution_zero_temp, re,
    gt_iff_lt, map_neg, Complex.neg_re]
  show (if mu < en then (0 : ℝ) else 1) + (if -mu < en then (0 : ℝ) else 1) = _
  rcases le_total 0 mu with hm | hm
  · rw [abs_of_nonneg hm]
    have : -mu < en := by linarith
    by_cases h : mu < en
    · simp [h, this]
    · simp [h, this, not_lt.1 h]
  · rw [abs_of_nonpos hm]
    have : mu < en := by linarith
    by_cases h : -mu < en
    · simp [h, this]
    · simp [h, this, not_lt.1 h]

/-- **C15** (Bose): the Bose distribution vanishes as `beta → ∞` above the chemical potential. -/
theorem C15_bose_limit (en mu : ℝ) (h : mu < en) :
    Tendsto (fun beta : ℝ => bose_distribution en beta mu) atTop (𝓝 0) := by
  simp only [bose_real, sub_eq_add_neg (Real.exp _)]
  exact (tendsto_atTop_add_const_right _ (-1)
    (tendsto_exp_mul_atTop (x := en - mu) (by linarith))).inv_tendsto_atTop

/-! ### C16 -/

/-- **C16** (positivity and monotonicity) for `beta > 0` and energies above the chemical potential. -/
theorem C16_bose (beta mu : ℝ) (hb : 0 < beta) :
    (∀ en : ℝ, mu < en → 0 < bose_distribution en beta mu) ∧
    StrictAntiOn (fun en : ℝ => bose_distribution en beta mu) (Set.Ioi mu) := by
  have hpos : ∀ en : ℝ, mu < en → 0 < Real.exp ((en - mu) * beta) - 1 := by
    intro en h
    have : 0 < (en - mu) * beta := mul_pos (by linarith) hb
    have := Real.one_lt_exp_iff.2 this
    linarith
  constructor
  · intro en h
    rw [bose_real]
    exact inv_pos.2 (hpos en h)
  · intro a ha b _ hab
    simp only [bose_real]
    apply inv_strictAnti₀ (hpos a ha)
    gcongr

/-- **C16** (reflection): `1 + n(en, mu) + n(-en, -mu) = 0` away from the pole. -/
theorem C16_bose_reflection (en beta mu : ℝ) (h : en ≠ mu) (hb : beta ≠ 0) :
    1 + bose_distribution en beta mu + bose_distribution (-en) beta (-mu) = 0 := by
  rw [bose_real, bose_real, show (-en - -mu) * beta = -((en - mu) * beta) by ring, Real.exp_neg]
  have h0 := Real.exp_pos ((en - mu) * beta)
  have h1 : Real.exp ((en - mu) * beta) ≠ 1 := by
    rw [Ne, Real.exp_eq_one_iff]
    exact mul_ne_zero (sub_ne_zero.2 h) hb
  have h2 : Real.exp ((en - mu) * beta) - 1 ≠ 0 := sub_ne_zero.2 h1
  have h3 : (Real.exp ((en - mu) * beta))⁻¹ - 1
      = -(Real.exp ((en - mu) * beta) - 1) / Real.exp ((en - mu) * beta) := by
    field_simp; ring
  rw [h3]
  field_simp
  ring

example : (0 : ℝ) < bose_distribution (2 : ℝ) 1 (1 : ℝ) := (C16_bose 1 1 one_pos).1 2 (by norm_num)

/-- The Fermi momentum squared is `mu² - m²` inside the Fermi sphere. -/
theorem C51_fermi_momentum (m mu : ℝ) (h : |m| ≤ |mu|) :
    0 ≤ fermi_momentum m mu ∧ fermi_momentum m mu ^ 2 = mu ^ 2 - m ^ 2 := by
  have : m ^ 2 ≤ mu ^ 2 := sq_le_sq.2 h
  refine ⟨Real.sqrt_nonneg _, ?_⟩
  rw [fermi_momentum, Real.sq_sqrt (by nlinarith)]
  ring

end Qcd
