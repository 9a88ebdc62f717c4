import Verif.Model.ChargeDensity
import Verif.Lemmas.Compactify
import Verif.Props.Distributions
import Mathlib.Analysis.SpecialFunctions.Pow.Asymptotics

/-! # Helpers for the charge density -/

namespace Qcd
open Filter Topology Set
open consts (Consts)
open qcd.thermal.quark

theorem energy_real (q m : ℝ) : energy q m = Real.sqrt (m * m + q * q) := rfl

theorem le_energy_real (q m : ℝ) : q ≤ energy q m := by
  rw [energy_real]
  exact Real.le_sqrt_of_sq_le (by nlinarith [mul_self_nonneg m])

theorem fermi_le_exp (en beta mu : ℝ) :
    fermi_distribution en beta mu ≤ Real.exp (-((en - mu) * beta)) := by
  rw [fermi_real, Real.exp_neg]
  exact inv_anti₀ (Real.exp_pos _) (by linarith)

theorem cd_continuous (k : Consts ℝ) (m beta mu : ℝ) :
    Continuous (fun q => charge_density_i k q m beta mu) := by
  have h : ∀ x mu : ℝ, Real.exp ((x - mu) * beta) + 1 ≠ 0 := fun x mu => by positivity
  unfold charge_density_i
  simp only [fermi_real, energy_real]
  refine Continuous.div_const (Continuous.mul (by fun_prop) (Continuous.sub ?_ ?_)) _
  · exact Continuous.inv₀ (by fun_prop) (fun x => h _ _)
  · exact Continuous.inv₀ (by fun_prop) (fun x => h _ _)

/-- The charge density integrand decays exponentially. -/
theorem cd_bound (k : Consts ℝ) (m beta mu : ℝ) (hb : 0 < beta) (q : ℝ) (hq : 0 ≤ q) :
    |charge_density_i k q m beta mu| ≤
      (k.nc : ℝ) * q * q * (Real.exp (-((q - |mu|) * beta))) / PI2 := by
  have hpi : 0 < PI2 := by unfold PI2; have := Real.pi_pos; positivity
  have key : |fermi_distribution (energy q m) beta mu - fermi_distribution (energy q m) beta (-mu)| ≤
      Real.exp (-((q - |mu|) * beta)) := by
    have h1 := (C13_bounds (energy q m) beta mu).1
    have h2 := (C13_bounds (energy q m) beta (-mu)).1
    have e1 := fermi_le_exp (energy q m) beta mu
    have e2 := fermi_le_exp (energy q m) beta (-mu)
    have hle := le_energy_real q m
    have b1 : Real.exp (-((energy q m - mu) * beta)) ≤ Real.exp (-((q - |mu|) * beta)) := by
      apply Real.exp_le_exp.2
      have := le_abs_self mu
      nlinarith
    have b2 : Real.exp (-((energy q m - -mu) * beta)) ≤ Real.exp (-((q - |mu|) * beta)) := by
      apply Real.exp_le_exp.2
      have := neg_abs_le mu
      nlinarith
    rw [abs_le]
    constructor <;> linarith
  unfold charge_density_i
  simp only
  rw [abs_div, abs_mul, abs_of_pos hpi, abs_of_nonneg (by positivity : 0 ≤ (k.nc : ℝ) * q * q)]
  gcongr

theorem poly_exp_decay (beta c : ℝ) (hb : 0 < beta) (C : ℝ) :
    Tendsto (fun q : ℝ => C * q * q * Real.exp (-((q - c) * beta)) / PI2 * ((1 + q) * (1 + q)))
      atTop (𝓝 0) := by
  have h : ∀ n : ℕ, Tendsto (fun x : ℝ => x ^ n * Real.exp (-beta * x)) atTop (𝓝 0) := fun n => by
    simpa using tendsto_rpow_mul_exp_neg_mul_atTop_nhds_zero (n : ℝ) beta hb
  have := ((((h 2).add ((h 3).const_mul 2)).add (h 4))).const_mul (C * Real.exp (c * beta) / PI2)
  simp only [mul_zero, add_zero] at this
  refine this.congr fun q => ?_
  have : Real.exp (-((q - c) * beta)) = Real.exp (c * beta) * Real.exp (-beta * q) := by
    rw [← Real.exp_add]; ring_nf
  rw [this]; ring

theorem cd_compact_continuousOn (k : Consts ℝ) (m beta mu : ℝ) (hb : 0 < beta) :
    ContinuousOn (fun t => charge_density_i k ((1 - t) / t) m beta mu / (t * t)) (Icc 0 1) := by
  apply compactify_continuousOn (cd_continuous k m beta mu).continuousOn
  refine squeeze_zero_norm' ?_ (poly_exp_decay beta |mu| hb k.nc)
  filter_upwards [eventually_ge_atTop 0] with q hq
  rw [norm_mul, Real.norm_eq_abs, Real.norm_eq_abs, abs_of_nonneg (by positivity : 0 ≤ (1 + q) * (1 + q))]
  gcongr
  exact cd_bound k m beta mu hb q hq

theorem cd_strictMono (k : Consts ℝ) (m beta : ℝ) (hb : 0 < beta) (hk : 0 < k.nc) (q : ℝ) (hq : q ≠ 0) :
    StrictMono (fun mu => charge_density_i k q m beta mu) := by
  intro a b hab
  have hpi : 0 < PI2 := by unfold PI2; have := Real.pi_pos; positivity
  have h1 := (C13_monotone beta hb).2 (energy q m) hab
  have h2 := (C13_monotone beta hb).2 (energy q m) (neg_lt_neg hab)
  have hk' : (0 : ℝ) < k.nc := by exact_mod_cast hk
  have hq2 : 0 < q * q := mul_self_pos.2 hq
  simp only at h1 h2
  unfold charge_density_i
  simp only
  apply div_lt_div_of_pos_right _ hpi
  apply mul_lt_mul_of_pos_left (by linarith)
  rw [mul_assoc]; positivity

end Qcd
