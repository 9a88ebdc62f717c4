import Verif.Model.ThermalParts
import Verif.Props.Distributions
import Mathlib.Analysis.SpecialFunctions.Exp

/-! # C48: the zero-temperature limit of the thermal integrands

As `beta → ∞`, at every momentum `q > 0`. Masses are real; frequencies (and momenta where the function allows it)
are arbitrary, including complex and singular ones. Generated by a script. -/

set_option linter.unusedSimpArgs false
set_option linter.unusedSectionVars false

namespace Qcd
open consts (Consts)
open Filter Topology
variable {T T1 T2 : Type} [Num T] [Num T1] [Num T2]

/-! ### Helpers -/

section rules
variable {E : Type} [NormedField E] {f g : ℝ → E}
theorem z_add (h : Tendsto f atTop (𝓝 0)) (h' : Tendsto g atTop (𝓝 0)) : Tendsto (fun b => f b + g b) atTop (𝓝 0) := by
  simpa using h.add h'
theorem z_sub (h : Tendsto f atTop (𝓝 0)) (h' : Tendsto g atTop (𝓝 0)) : Tendsto (fun b => f b - g b) atTop (𝓝 0) := by
  simpa using h.sub h'
theorem z_neg (h : Tendsto f atTop (𝓝 0)) : Tendsto (fun b => -f b) atTop (𝓝 0) := by
  simpa using h.neg
theorem z_mul_const (c : E) (h : Tendsto f atTop (𝓝 0)) : Tendsto (fun b => f b * c) atTop (𝓝 0) := by
  simpa using h.mul_const c
theorem z_const_mul (c : E) (h : Tendsto f atTop (𝓝 0)) : Tendsto (fun b => c * f b) atTop (𝓝 0) := by
  simpa using h.const_mul c
theorem z_div_const (c : E) (h : Tendsto f atTop (𝓝 0)) : Tendsto (fun b => f b / c) atTop (𝓝 0) := by
  simpa using h.div_const c
theorem z_ofReal {f : ℝ → ℝ} (h : Tendsto f atTop (𝓝 0)) : Tendsto (fun b => ((f b : ℝ) : ℂ)) atTop (𝓝 0) := by
  have := (Complex.continuous_ofReal.tendsto 0).comp h
  rwa [Complex.ofReal_zero] at this
end rules

theorem zr_add {f g : ℝ → ℝ} (h : Tendsto f atTop (𝓝 0)) (h' : Tendsto g atTop (𝓝 0)) :
    Tendsto (fun b => f b + g b) atTop (𝓝 0) := z_add h h'
theorem zr_sub {f g : ℝ → ℝ} (h : Tendsto f atTop (𝓝 0)) (h' : Tendsto g atTop (𝓝 0)) :
    Tendsto (fun b => f b - g b) atTop (𝓝 0) := z_sub h h'
theorem zr_neg {f : ℝ → ℝ} (h : Tendsto f atTop (𝓝 0)) :
    Tendsto (fun b => -f b) atTop (𝓝 0) := z_neg h
theorem zr_mul_const {f : ℝ → ℝ} (c : ℝ) (h : Tendsto f atTop (𝓝 0)) :
    Tendsto (fun b => f b * c) atTop (𝓝 0) := z_mul_const c h
theorem zr_const_mul {f : ℝ → ℝ} (c : ℝ) (h : Tendsto f atTop (𝓝 0)) :
    Tendsto (fun b => c * f b) atTop (𝓝 0) := z_const_mul c h
theorem zr_div_const {f : ℝ → ℝ} (c : ℝ) (h : Tendsto f atTop (𝓝 0)) :
    Tendsto (fun b => f b / c) atTop (𝓝 0) := z_div_const c h
theorem zc_add {f g : ℝ → ℂ} (h : Tendsto f atTop (𝓝 0)) (h' : Tendsto g atTop (𝓝 0)) :
    Tendsto (fun b => f b + g b) atTop (𝓝 0) := z_add h h'
theorem zc_sub {f g : ℝ → ℂ} (h : Tendsto f atTop (𝓝 0)) (h' : Tendsto g atTop (𝓝 0)) :
    Tendsto (fun b => f b - g b) atTop (𝓝 0) := z_sub h h'
theorem zc_neg {f : ℝ → ℂ} (h : Tendsto f atTop (𝓝 0)) :
    Tendsto (fun b => -f b) atTop (𝓝 0) := z_neg h
theorem zc_mul_const {f : ℝ → ℂ} (c : ℂ) (h : Tendsto f atTop (𝓝 0)) :
    Tendsto (fun b => f b * c) atTop (𝓝 0) := z_mul_const c h
theorem zc_const_mul {f : ℝ → ℂ} (c : ℂ) (h : Tendsto f atTop (𝓝 0)) :
    Tendsto (fun b => c * f b) atTop (𝓝 0) := z_const_mul c h
theorem zc_div_const {f : ℝ → ℂ} (c : ℂ) (h : Tendsto f atTop (𝓝 0)) :
    Tendsto (fun b => f b / c) atTop (𝓝 0) := z_div_const c h

theorem bose0_real (en beta : ℝ) : bose_distribution_zero_chempot en beta = (Real.exp (en * beta) - 1)⁻¹ := by
  simp [bose_distribution_zero_chempot, statistic_distribution_exponential_zero_chempot]

theorem z_bose {en : ℝ} (h : 0 < en) : Tendsto (fun b : ℝ => bose_distribution_zero_chempot en b) atTop (𝓝 0) := by
  have := C15_bose_limit en 0 h
  simpa only [bose0_real, bose_real, sub_zero] using this

theorem z_bose_bose {en : ℝ} (h : 0 < en) :
    Tendsto (fun b : ℝ => b * (bose_distribution_zero_chempot en b * bose_distribution_zero_chempot (-en) b)) atTop (𝓝 0) := by
  have h1 : Tendsto (fun b : ℝ => en * b) atTop atTop := tendsto_id.const_mul_atTop h
  have h2 : Tendsto (fun b : ℝ => (en * b) ^ 1 * Real.exp (-(en * b))) atTop (𝓝 0) :=
    (Real.tendsto_pow_mul_exp_neg_atTop_nhds_zero 1).comp h1
  have h3 : Tendsto (fun b : ℝ => Real.exp (-(en * b))) atTop (𝓝 0) :=
    Real.tendsto_exp_neg_atTop_nhds_zero.comp h1
  have h4 : Tendsto (fun b : ℝ => -en⁻¹ * ((en * b) ^ 1 * Real.exp (-(en * b))) * ((1 - Real.exp (-(en * b)))⁻¹ * (1 - Real.exp (-(en * b)))⁻¹))
      atTop (𝓝 (-en⁻¹ * 0 * ((1 - 0)⁻¹ * (1 - 0)⁻¹))) := by
    have h5 : Tendsto (fun b : ℝ => (1 - Real.exp (-(en * b)))⁻¹) atTop (𝓝 (1 - 0)⁻¹) :=
      (tendsto_const_nhds.sub h3).inv₀ (by norm_num)
    exact (h2.const_mul _).mul (h5.mul h5)
  have h6 : (-en⁻¹ * 0 * ((1 - 0)⁻¹ * (1 - 0)⁻¹) : ℝ) = 0 := by simp
  rw [h6] at h4
  refine h4.congr' ?_
  filter_upwards [eventually_gt_atTop 0] with b hb
  have hx : 0 < en * b := mul_pos h hb
  have e1 : Real.exp (en * b) - 1 ≠ 0 := by
    have := Real.add_one_lt_exp hx.ne'
    linarith
  have e0 : Real.exp (en * b) ≠ 0 := (Real.exp_pos _).ne'
  simp only [bose0_real, neg_mul, Real.exp_neg, pow_one]
  have e2 : 1 - (Real.exp (en * b))⁻¹ = (Real.exp (en * b) - 1) / Real.exp (en * b) := by field_simp
  have e3 : (Real.exp (en * b))⁻¹ - 1 = -(Real.exp (en * b) - 1) / Real.exp (en * b) := by field_simp; ring
  rw [e2, e3]
  field_simp

theorem zt_energy_pos {q : ℝ} (hq : 0 < q) (m : ℝ) : 0 < energy q m := by
  have : energy q m = Real.sqrt (m * m + q * q) := rfl
  rw [this]
  exact Real.sqrt_pos.2 (by nlinarith [mul_self_nonneg m, mul_pos hq hq])

theorem z_thermal_d2_j_m_i {q : ℝ} (hq : 0 < q) (m : ℝ) : Tendsto (fun b : ℝ => thermal.d2_j_m_i q m b) atTop (𝓝 0) := by
  have h1 := z_bose (zt_energy_pos hq m)
  have h2 := z_bose_bose (zt_energy_pos hq m)
  have h3 := z_add (z_const_mul (-(energy q m * (energy q m * energy q m * energy q m * 8 * PI2)⁻¹)) h2) (z_const_mul ((energy q m * energy q m * energy q m * 8 * PI2)⁻¹) h1)
  refine h3.congr fun b => ?_
  simp only [thermal.d2_j_m_i, ofR_real, div_eq_mul_inv]
  ring

theorem z_thermal_d2_j_m_l_i {q : ℝ} (hq : 0 < q) (m : ℝ) : Tendsto (fun b : ℝ => thermal.d2_j_m_l_i q m b) atTop (𝓝 0) := by
  have h1 := z_bose (zt_energy_pos hq m)
  have h2 := z_bose_bose (zt_energy_pos hq m)
  have h3 := z_add (z_const_mul ((8 * PI2)⁻¹) h2) (z_const_mul ((8 * PI2)⁻¹ * (energy q m)⁻¹) h1)
  refine h3.congr fun b => ?_
  simp only [thermal.d2_j_m_l_i, ofR_real, div_eq_mul_inv]
  ring

theorem z_thermal_d2_j_0_i {q : ℝ} (hq : 0 < q) : Tendsto (fun b : ℝ => thermal.d2_j_0_i q b) atTop (𝓝 0) := by
  have h1 := z_bose hq
  have h2 := z_bose_bose hq
  have h3 := z_add (z_const_mul (-(q * (q * q * q * 8 * PI2)⁻¹)) h2) (z_const_mul ((q * q * q * 8 * PI2)⁻¹) h1)
  refine h3.congr fun b => ?_
  simp only [thermal.d2_j_0_i, div_eq_mul_inv]
  ring

theorem z_thermal_d2_j_0_l_i {q : ℝ} (hq : 0 < q) : Tendsto (fun b : ℝ => thermal.d2_j_0_l_i q b) atTop (𝓝 0) := by
  have h1 := z_bose hq
  have h2 := z_bose_bose hq
  have h3 := z_add (z_const_mul ((8 * PI2)⁻¹) h2) (z_const_mul ((8 * PI2)⁻¹ * q⁻¹) h1)
  refine h3.congr fun b => ?_
  simp only [thermal.d2_j_0_l_i, div_eq_mul_inv]
  ring

section
attribute [local irreducible] bose_distribution_zero_chempot energy thermal.tlog thermal.tlog_l thermal.tlog_t thermal.r_0 thermal.tlog_same_mass thermal.tlog_zero_mass

theorem z_thermal_j_m_i {q : ℝ} (hq : 0 < q) (m : ℝ) : Tendsto (fun b : ℝ => thermal.j_m_i q m b) atTop (𝓝 0) := by
  simp only [thermal.j_m_i, toC_real, toC_complex, toC_ofR, ofR_real, ofR_complex, map_add, map_sub, map_neg, map_mul, map_div₀, map_inv₀]
  repeat' first
    | with_reducible exact z_bose (zt_energy_pos hq _)
    | with_reducible exact z_bose hq
    | with_reducible apply z_ofReal
    | with_reducible apply zc_mul_const
    | with_reducible apply zr_mul_const
    | with_reducible apply zc_const_mul
    | with_reducible apply zr_const_mul
    | with_reducible apply zc_div_const
    | with_reducible apply zr_div_const
    | with_reducible apply zc_neg
    | with_reducible apply zr_neg
    | with_reducible apply zc_add
    | with_reducible apply zr_add
    | with_reducible apply zc_sub
    | with_reducible apply zr_sub

theorem z_thermal_j_0_i {q : ℝ} (hq : 0 < q)  : Tendsto (fun b : ℝ => thermal.j_0_i q b) atTop (𝓝 0) := by
  simp only [thermal.j_0_i, toC_real, toC_complex, toC_ofR, ofR_real, ofR_complex, map_add, map_sub, map_neg, map_mul, map_div₀, map_inv₀]
  repeat' first
    | with_reducible exact z_bose (zt_energy_pos hq _)
    | with_reducible exact z_bose hq
    | with_reducible apply z_ofReal
    | with_reducible apply zc_mul_const
    | with_reducible apply zr_mul_const
    | with_reducible apply zc_const_mul
    | with_reducible apply zr_const_mul
    | with_reducible apply zc_div_const
    | with_reducible apply zr_div_const
    | with_reducible apply zc_neg
    | with_reducible apply zr_neg
    | with_reducible apply zc_add
    | with_reducible apply zr_add
    | with_reducible apply zc_sub
    | with_reducible apply zr_sub

theorem z_thermal_j_m_l_i {q : ℝ} (hq : 0 < q) (m : ℝ) : Tendsto (fun b : ℝ => thermal.j_m_l_i q m b) atTop (𝓝 0) := by
  simp only [thermal.j_m_l_i, toC_real, toC_complex, toC_ofR, ofR_real, ofR_complex, map_add, map_sub, map_neg, map_mul, map_div₀, map_inv₀]
  repeat' first
    | with_reducible exact z_bose (zt_energy_pos hq _)
    | with_reducible exact z_bose hq
    | with_reducible apply z_ofReal
    | with_reducible apply zc_mul_const
    | with_reducible apply zr_mul_const
    | with_reducible apply zc_const_mul
    | with_reducible apply zr_const_mul
    | with_reducible apply zc_div_const
    | with_reducible apply zr_div_const
    | with_reducible apply zc_neg
    | with_reducible apply zr_neg
    | with_reducible apply zc_add
    | with_reducible apply zr_add
    | with_reducible apply zc_sub
    | with_reducible apply zr_sub

theorem z_thermal_j_0_l_i {q : ℝ} (hq : 0 < q)  : Tendsto (fun b : ℝ => thermal.j_0_l_i q b) atTop (𝓝 0) := by
  simp only [thermal.j_0_l_i, toC_real, toC_complex, toC_ofR, ofR_real, ofR_complex, map_add, map_sub, map_neg, map_mul, map_div₀, map_inv₀]
  repeat' first
    | with_reducible exact z_bose (zt_energy_pos hq _)
    | with_reducible exact z_bose hq
    | with_reducible apply z_ofReal
    | with_reducible apply zc_mul_const
    | with_reducible apply zr_mul_const
    | with_reducible apply zc_const_mul
    | with_reducible apply zr_const_mul
    | with_reducible apply zc_div_const
    | with_reducible apply zr_div_const
    | with_reducible apply zc_neg
    | with_reducible apply zr_neg
    | with_reducible apply zc_add
    | with_reducible apply zr_add
    | with_reducible apply zc_sub
    | with_reducible apply zr_sub

theorem z_thermal_j_m_t_i {q : ℝ} (hq : 0 < q) (m : ℝ) : Tendsto (fun b : ℝ => thermal.j_m_t_i q m b) atTop (𝓝 0) := by
  simp only [thermal.j_m_t_i, toC_real, toC_complex, toC_ofR, ofR_real, ofR_complex, map_add, map_sub, map_neg, map_mul, map_div₀, map_inv₀]
  repeat' first
    | with_reducible exact z_bose (zt_energy_pos hq _)
    | with_reducible exact z_bose hq
    | with_reducible apply z_ofReal
    | with_reducible apply zc_mul_const
    | with_reducible apply zr_mul_const
    | with_reducible apply zc_const_mul
    | with_reducible apply zr_const_mul
    | with_reducible apply zc_div_const
    | with_reducible apply zr_div_const
    | with_reducible apply zc_neg
    | with_reducible apply zr_neg
    | with_reducible apply zc_add
    | with_reducible apply zr_add
    | with_reducible apply zc_sub
    | with_reducible apply zr_sub

theorem z_thermal_j_0_t_i {q : ℝ} (hq : 0 < q)  : Tendsto (fun b : ℝ => thermal.j_0_t_i q b) atTop (𝓝 0) := by
  simp only [thermal.j_0_t_i, toC_real, toC_complex, toC_ofR, ofR_real, ofR_complex, map_add, map_sub, map_neg, map_mul, map_div₀, map_inv₀]
  repeat' first
    | with_reducible exact z_bose (zt_energy_pos hq _)
    | with_reducible exact z_bose hq
    | with_reducible apply z_ofReal
    | with_reducible apply zc_mul_const
    | with_reducible apply zr_mul_const
    | with_reducible apply zc_const_mul
    | with_reducible apply zr_const_mul
    | with_reducible apply zc_div_const
    | with_reducible apply zr_div_const
    | with_reducible apply zc_neg
    | with_reducible apply zr_neg
    | with_reducible apply zc_add
    | with_reducible apply zr_add
    | with_reducible apply zc_sub
    | with_reducible apply zr_sub

theorem z_thermal_i_m_m_i {q : ℝ} (hq : 0 < q) (om : T1) (p : ℝ) (m1 : ℝ) (m2 : ℝ) : Tendsto (fun b : ℝ => thermal.i_m_m_i q om p m1 m2 b) atTop (𝓝 0) := by
  simp only [thermal.i_m_m_i, toC_real, toC_complex, toC_ofR, ofR_real, ofR_complex, map_add, map_sub, map_neg, map_mul, map_div₀, map_inv₀]
  repeat' first
    | with_reducible exact z_bose (zt_energy_pos hq _)
    | with_reducible exact z_bose hq
    | with_reducible apply z_ofReal
    | with_reducible apply zc_mul_const
    | with_reducible apply zr_mul_const
    | with_reducible apply zc_const_mul
    | with_reducible apply zr_const_mul
    | with_reducible apply zc_div_const
    | with_reducible apply zr_div_const
    | with_reducible apply zc_neg
    | with_reducible apply zr_neg
    | with_reducible apply zc_add
    | with_reducible apply zr_add
    | with_reducible apply zc_sub
    | with_reducible apply zr_sub

theorem z_thermal_i_m_m_i_same_mass {q : ℝ} (hq : 0 < q) (om : T1) (p : T2) (m : ℝ) : Tendsto (fun b : ℝ => thermal.i_m_m_i_same_mass q om p m b) atTop (𝓝 0) := by
  simp only [thermal.i_m_m_i_same_mass, toC_real, toC_complex, toC_ofR, ofR_real, ofR_complex, map_add, map_sub, map_neg, map_mul, map_div₀, map_inv₀]
  repeat' first
    | with_reducible exact z_bose (zt_energy_pos hq _)
    | with_reducible exact z_bose hq
    | with_reducible apply z_ofReal
    | with_reducible apply zc_mul_const
    | with_reducible apply zr_mul_const
    | with_reducible apply zc_const_mul
    | with_reducible apply zr_const_mul
    | with_reducible apply zc_div_const
    | with_reducible apply zr_div_const
    | with_reducible apply zc_neg
    | with_reducible apply zr_neg
    | with_reducible apply zc_add
    | with_reducible apply zr_add
    | with_reducible apply zc_sub
    | with_reducible apply zr_sub

theorem z_thermal_i_m_0_i {q : ℝ} (hq : 0 < q) (om : T1) (p : T2) (m : ℝ) : Tendsto (fun b : ℝ => thermal.i_m_0_i q om p m b) atTop (𝓝 0) := by
  simp only [thermal.i_m_0_i, toC_real, toC_complex, toC_ofR, ofR_real, ofR_complex, map_add, map_sub, map_neg, map_mul, map_div₀, map_inv₀]
  repeat' first
    | with_reducible exact z_bose (zt_energy_pos hq _)
    | with_reducible exact z_bose hq
    | with_reducible apply z_ofReal
    | with_reducible apply zc_mul_const
    | with_reducible apply zr_mul_const
    | with_reducible apply zc_const_mul
    | with_reducible apply zr_const_mul
    | with_reducible apply zc_div_const
    | with_reducible apply zr_div_const
    | with_reducible apply zc_neg
    | with_reducible apply zr_neg
    | with_reducible apply zc_add
    | with_reducible apply zr_add
    | with_reducible apply zc_sub
    | with_reducible apply zr_sub

theorem z_thermal_i_0_0_i {q : ℝ} (hq : 0 < q) (om : T) (p : ℝ) : Tendsto (fun b : ℝ => thermal.i_0_0_i q om p b) atTop (𝓝 0) := by
  simp only [thermal.i_0_0_i, toC_real, toC_complex, toC_ofR, ofR_real, ofR_complex, map_add, map_sub, map_neg, map_mul, map_div₀, map_inv₀]
  repeat' first
    | with_reducible exact z_bose (zt_energy_pos hq _)
    | with_reducible exact z_bose hq
    | with_reducible apply z_ofReal
    | with_reducible apply zc_mul_const
    | with_reducible apply zr_mul_const
    | with_reducible apply zc_const_mul
    | with_reducible apply zr_const_mul
    | with_reducible apply zc_div_const
    | with_reducible apply zr_div_const
    | with_reducible apply zc_neg
    | with_reducible apply zr_neg
    | with_reducible apply zc_add
    | with_reducible apply zr_add
    | with_reducible apply zc_sub
    | with_reducible apply zr_sub

theorem z_thermal_i_m_m_l_i {q : ℝ} (hq : 0 < q) (om : T1) (p : ℝ) (m1 : ℝ) (m2 : ℝ) : Tendsto (fun b : ℝ => thermal.i_m_m_l_i q om p m1 m2 b) atTop (𝓝 0) := by
  simp only [thermal.i_m_m_l_i, toC_real, toC_complex, toC_ofR, ofR_real, ofR_complex, map_add, map_sub, map_neg, map_mul, map_div₀, map_inv₀]
  repeat' first
    | with_reducible exact z_bose (zt_energy_pos hq _)
    | with_reducible exact z_bose hq
    | with_reducible apply z_ofReal
    | with_reducible apply zc_mul_const
    | with_reducible apply zr_mul_const
    | with_reducible apply zc_const_mul
    | with_reducible apply zr_const_mul
    | with_reducible apply zc_div_const
    | with_reducible apply zr_div_const
    | with_reducible apply zc_neg
    | with_reducible apply zr_neg
    | with_reducible apply zc_add
    | with_reducible apply zr_add
    | with_reducible apply zc_sub
    | with_reducible apply zr_sub

theorem z_thermal_i_m_m_l_i_same_mass {q : ℝ} (hq : 0 < q) (om : T1) (p : T2) (m : ℝ) : Tendsto (fun b : ℝ => thermal.i_m_m_l_i_same_mass q om p m b) atTop (𝓝 0) := by
  simp only [thermal.i_m_m_l_i_same_mass, toC_real, toC_complex, toC_ofR, ofR_real, ofR_complex, map_add, map_sub, map_neg, map_mul, map_div₀, map_inv₀]
  repeat' first
    | with_reducible exact z_bose (zt_energy_pos hq _)
    | with_reducible exact z_bose hq
    | with_reducible apply z_ofReal
    | with_reducible apply zc_mul_const
    | with_reducible apply zr_mul_const
    | with_reducible apply zc_const_mul
    | with_reducible apply zr_const_mul
    | with_reducible apply zc_div_const
    | with_reducible apply zr_div_const
    | with_reducible apply zc_neg
    | with_reducible apply zr_neg
    | with_reducible apply zc_add
    | with_reducible apply zr_add
    | with_reducible apply zc_sub
    | with_reducible apply zr_sub

theorem z_thermal_i_m_0_l_i {q : ℝ} (hq : 0 < q) (om : T1) (p : T2) (m : ℝ) : Tendsto (fun b : ℝ => thermal.i_m_0_l_i q om p m b) atTop (𝓝 0) := by
  simp only [thermal.i_m_0_l_i, toC_real, toC_complex, toC_ofR, ofR_real, ofR_complex, map_add, map_sub, map_neg, map_mul, map_div₀, map_inv₀]
  repeat' first
    | with_reducible exact z_bose (zt_energy_pos hq _)
    | with_reducible exact z_bose hq
    | with_reducible apply z_ofReal
    | with_reducible apply zc_mul_const
    | with_reducible apply zr_mul_const
    | with_reducible apply zc_const_mul
    | with_reducible apply zr_const_mul
    | with_reducible apply zc_div_const
    | with_reducible apply zr_div_const
    | with_reducible apply zc_neg
    | with_reducible apply zr_neg
    | with_reducible apply zc_add
    | with_reducible apply zr_add
    | with_reducible apply zc_sub
    | with_reducible apply zr_sub

theorem z_thermal_i_0_0_l_i {q : ℝ} (hq : 0 < q) (om : T1) (p : T2) : Tendsto (fun b : ℝ => thermal.i_0_0_l_i q om p b) atTop (𝓝 0) := by
  simp only [thermal.i_0_0_l_i, toC_real, toC_complex, toC_ofR, ofR_real, ofR_complex, map_add, map_sub, map_neg, map_mul, map_div₀, map_inv₀]
  repeat' first
    | with_reducible exact z_bose (zt_energy_pos hq _)
    | with_reducible exact z_bose hq
    | with_reducible apply z_ofReal
    | with_reducible apply zc_mul_const
    | with_reducible apply zr_mul_const
    | with_reducible apply zc_const_mul
    | with_reducible apply zr_const_mul
    | with_reducible apply zc_div_const
    | with_reducible apply zr_div_const
    | with_reducible apply zc_neg
    | with_reducible apply zr_neg
    | with_reducible apply zc_add
    | with_reducible apply zr_add
    | with_reducible apply zc_sub
    | with_reducible apply zr_sub

theorem z_thermal_i_m_m_t_i {q : ℝ} (hq : 0 < q) (om : T1) (p : ℝ) (m1 : ℝ) (m2 : ℝ) : Tendsto (fun b : ℝ => thermal.i_m_m_t_i q om p m1 m2 b) atTop (𝓝 0) := by
  simp only [thermal.i_m_m_t_i, toC_real, toC_complex, toC_ofR, ofR_real, ofR_complex, map_add, map_sub, map_neg, map_mul, map_div₀, map_inv₀]
  repeat' first
    | with_reducible exact z_bose (zt_energy_pos hq _)
    | with_reducible exact z_bose hq
    | with_reducible apply z_ofReal
    | with_reducible apply zc_mul_const
    | with_reducible apply zr_mul_const
    | with_reducible apply zc_const_mul
    | with_reducible apply zr_const_mul
    | with_reducible apply zc_div_const
    | with_reducible apply zr_div_const
    | with_reducible apply zc_neg
    | with_reducible apply zr_neg
    | with_reducible apply zc_add
    | with_reducible apply zr_add
    | with_reducible apply zc_sub
    | with_reducible apply zr_sub

theorem z_thermal_i_m_m_t_i_same_mass {q : ℝ} (hq : 0 < q) (om : T1) (p : ℝ) (m : ℝ) : Tendsto (fun b : ℝ => thermal.i_m_m_t_i_same_mass q om p m b) atTop (𝓝 0) := by
  simp only [thermal.i_m_m_t_i_same_mass, toC_real, toC_complex, toC_ofR, ofR_real, ofR_complex, map_add, map_sub, map_neg, map_mul, map_div₀, map_inv₀]
  repeat' first
    | with_reducible exact z_bose (zt_energy_pos hq _)
    | with_reducible exact z_bose hq
    | with_reducible apply z_ofReal
    | with_reducible apply zc_mul_const
    | with_reducible apply zr_mul_const
    | with_reducible apply zc_const_mul
    | with_reducible apply zr_const_mul
    | with_reducible apply zc_div_const
    | with_reducible apply zr_div_const
    | with_reducible apply zc_neg
    | with_reducible apply zr_neg
    | with_reducible apply zc_add
    | with_reducible apply zr_add
    | with_reducible apply zc_sub
    | with_reducible apply zr_sub

theorem z_thermal_i_m_0_t_i {q : ℝ} (hq : 0 < q) (om : T1) (p : ℝ) (m : ℝ) : Tendsto (fun b : ℝ => thermal.i_m_0_t_i q om p m b) atTop (𝓝 0) := by
  simp only [thermal.i_m_0_t_i, toC_real, toC_complex, toC_ofR, ofR_real, ofR_complex, map_add, map_sub, map_neg, map_mul, map_div₀, map_inv₀]
  repeat' first
    | with_reducible exact z_bose (zt_energy_pos hq _)
    | with_reducible exact z_bose hq
    | with_reducible apply z_ofReal
    | with_reducible apply zc_mul_const
    | with_reducible apply zr_mul_const
    | with_reducible apply zc_const_mul
    | with_reducible apply zr_const_mul
    | with_reducible apply zc_div_const
    | with_reducible apply zr_div_const
    | with_reducible apply zc_neg
    | with_reducible apply zr_neg
    | with_reducible apply zc_add
    | with_reducible apply zr_add
    | with_reducible apply zc_sub
    | with_reducible apply zr_sub

theorem z_thermal_i_0_0_t_i {q : ℝ} (hq : 0 < q) (om : T) (p : ℝ) : Tendsto (fun b : ℝ => thermal.i_0_0_t_i q om p b) atTop (𝓝 0) := by
  simp only [thermal.i_0_0_t_i, toC_real, toC_complex, toC_ofR, ofR_real, ofR_complex, map_add, map_sub, map_neg, map_mul, map_div₀, map_inv₀]
  repeat' first
    | with_reducible exact z_bose (zt_energy_pos hq _)
    | with_reducible exact z_bose hq
    | with_reducible apply z_ofReal
    | with_reducible apply zc_mul_const
    | with_reducible apply zr_mul_const
    | with_reducible apply zc_const_mul
    | with_reducible apply zr_const_mul
    | with_reducible apply zc_div_const
    | with_reducible apply zr_div_const
    | with_reducible apply zc_neg
    | with_reducible apply zr_neg
    | with_reducible apply zc_add
    | with_reducible apply zr_add
    | with_reducible apply zc_sub
    | with_reducible apply zr_sub

theorem z_thermal_d_j_m_i {q : ℝ} (hq : 0 < q) (m : ℝ) : Tendsto (fun b : ℝ => thermal.d_j_m_i q m b) atTop (𝓝 0) := by
  simp only [thermal.d_j_m_i, toC_real, toC_complex, toC_ofR, ofR_real, ofR_complex, map_add, map_sub, map_neg, map_mul, map_div₀, map_inv₀]
  repeat' first
    | with_reducible exact z_bose (zt_energy_pos hq _)
    | with_reducible exact z_bose hq
    | with_reducible apply z_ofReal
    | with_reducible apply zc_mul_const
    | with_reducible apply zr_mul_const
    | with_reducible apply zc_const_mul
    | with_reducible apply zr_const_mul
    | with_reducible apply zc_div_const
    | with_reducible apply zr_div_const
    | with_reducible apply zc_neg
    | with_reducible apply zr_neg
    | with_reducible apply zc_add
    | with_reducible apply zr_add
    | with_reducible apply zc_sub
    | with_reducible apply zr_sub

theorem z_thermal_d_j_0_i {q : ℝ} (hq : 0 < q)  : Tendsto (fun b : ℝ => thermal.d_j_0_i q b) atTop (𝓝 0) := by
  simp only [thermal.d_j_0_i, toC_real, toC_complex, toC_ofR, ofR_real, ofR_complex, map_add, map_sub, map_neg, map_mul, map_div₀, map_inv₀]
  repeat' first
    | with_reducible exact z_bose (zt_energy_pos hq _)
    | with_reducible exact z_bose hq
    | with_reducible apply z_ofReal
    | with_reducible apply zc_mul_const
    | with_reducible apply zr_mul_const
    | with_reducible apply zc_const_mul
    | with_reducible apply zr_const_mul
    | with_reducible apply zc_div_const
    | with_reducible apply zr_div_const
    | with_reducible apply zc_neg
    | with_reducible apply zr_neg
    | with_reducible apply zc_add
    | with_reducible apply zr_add
    | with_reducible apply zc_sub
    | with_reducible apply zr_sub

theorem z_thermal_d_j_m_l_i {q : ℝ} (hq : 0 < q) (m : ℝ) : Tendsto (fun b : ℝ => thermal.d_j_m_l_i q m b) atTop (𝓝 0) := by
  simp only [thermal.d_j_m_l_i, toC_real, toC_complex, toC_ofR, ofR_real, ofR_complex, map_add, map_sub, map_neg, map_mul, map_div₀, map_inv₀]
  repeat' first
    | with_reducible exact z_bose (zt_energy_pos hq _)
    | with_reducible exact z_bose hq
    | with_reducible apply z_ofReal
    | with_reducible apply zc_mul_const
    | with_reducible apply zr_mul_const
    | with_reducible apply zc_const_mul
    | with_reducible apply zr_const_mul
    | with_reducible apply zc_div_const
    | with_reducible apply zr_div_const
    | with_reducible apply zc_neg
    | with_reducible apply zr_neg
    | with_reducible apply zc_add
    | with_reducible apply zr_add
    | with_reducible apply zc_sub
    | with_reducible apply zr_sub

theorem z_thermal_d_j_0_l_i {q : ℝ} (hq : 0 < q)  : Tendsto (fun b : ℝ => thermal.d_j_0_l_i q b) atTop (𝓝 0) := by
  simp only [thermal.d_j_0_l_i, toC_real, toC_complex, toC_ofR, ofR_real, ofR_complex, map_add, map_sub, map_neg, map_mul, map_div₀, map_inv₀]
  repeat' first
    | with_reducible exact z_bose (zt_energy_pos hq _)
    | with_reducible exact z_bose hq
    | with_reducible apply z_ofReal
    | with_reducible apply zc_mul_const
    | with_reducible apply zr_mul_const
    | with_reducible apply zc_const_mul
    | with_reducible apply zr_const_mul
    | with_reducible apply zc_div_const
    | with_reducible apply zr_div_const
    | with_reducible apply zc_neg
    | with_reducible apply zr_neg
    | with_reducible apply zc_add
    | with_reducible apply zr_add
    | with_reducible apply zc_sub
    | with_reducible apply zr_sub

theorem z_thermal_d_j_m_t_i {q : ℝ} (hq : 0 < q) (m : ℝ) : Tendsto (fun b : ℝ => thermal.d_j_m_t_i q m b) atTop (𝓝 0) := by
  simp only [thermal.d_j_m_t_i, toC_real, toC_complex, toC_ofR, ofR_real, ofR_complex, map_add, map_sub, map_neg, map_mul, map_div₀, map_inv₀]
  repeat' first
    | with_reducible exact z_bose (zt_energy_pos hq _)
    | with_reducible exact z_bose hq
    | with_reducible apply z_ofReal
    | with_reducible apply zc_mul_const
    | with_reducible apply zr_mul_const
    | with_reducible apply zc_const_mul
    | with_reducible apply zr_const_mul
    | with_reducible apply zc_div_const
    | with_reducible apply zr_div_const
    | with_reducible apply zc_neg
    | with_reducible apply zr_neg
    | with_reducible apply zc_add
    | with_reducible apply zr_add
    | with_reducible apply zc_sub
    | with_reducible apply zr_sub

theorem z_thermal_d_j_0_t_i {q : ℝ} (hq : 0 < q)  : Tendsto (fun b : ℝ => thermal.d_j_0_t_i q b) atTop (𝓝 0) := by
  simp only [thermal.d_j_0_t_i, toC_real, toC_complex, toC_ofR, ofR_real, ofR_complex, map_add, map_sub, map_neg, map_mul, map_div₀, map_inv₀]
  repeat' first
    | with_reducible exact z_bose (zt_energy_pos hq _)
    | with_reducible exact z_bose hq
    | with_reducible apply z_ofReal
    | with_reducible apply zc_mul_const
    | with_reducible apply zr_mul_const
    | with_reducible apply zc_const_mul
    | with_reducible apply zr_const_mul
    | with_reducible apply zc_div_const
    | with_reducible apply zr_div_const
    | with_reducible apply zc_neg
    | with_reducible apply zr_neg
    | with_reducible apply zc_add
    | with_reducible apply zr_add
    | with_reducible apply zc_sub
    | with_reducible apply zr_sub

theorem z_thermal_d2_j_m_t_i {q : ℝ} (hq : 0 < q) (m : ℝ) : Tendsto (fun b : ℝ => thermal.d2_j_m_t_i q m b) atTop (𝓝 0) := by
  simp only [thermal.d2_j_m_t_i, toC_real, toC_complex, toC_ofR, ofR_real, ofR_complex, map_add, map_sub, map_neg, map_mul, map_div₀, map_inv₀]
  repeat' first
    | with_reducible exact z_bose (zt_energy_pos hq _)
    | with_reducible exact z_bose hq
    | with_reducible apply z_ofReal
    | with_reducible apply zc_mul_const
    | with_reducible apply zr_mul_const
    | with_reducible apply zc_const_mul
    | with_reducible apply zr_const_mul
    | with_reducible apply zc_div_const
    | with_reducible apply zr_div_const
    | with_reducible apply zc_neg
    | with_reducible apply zr_neg
    | with_reducible apply zc_add
    | with_reducible apply zr_add
    | with_reducible apply zc_sub
    | with_reducible apply zr_sub

theorem z_thermal_d2_j_0_t_i {q : ℝ} (hq : 0 < q)  : Tendsto (fun b : ℝ => thermal.d2_j_0_t_i q b) atTop (𝓝 0) := by
  simp only [thermal.d2_j_0_t_i, toC_real, toC_complex, toC_ofR, ofR_real, ofR_complex, map_add, map_sub, map_neg, map_mul, map_div₀, map_inv₀]
  repeat' first
    | with_reducible exact z_bose (zt_energy_pos hq _)
    | with_reducible exact z_bose hq
    | with_reducible apply z_ofReal
    | with_reducible apply zc_mul_const
    | with_reducible apply zr_mul_const
    | with_reducible apply zc_const_mul
    | with_reducible apply zr_const_mul
    | with_reducible apply zc_div_const
    | with_reducible apply zr_div_const
    | with_reducible apply zc_neg
    | with_reducible apply zr_neg
    | with_reducible apply zc_add
    | with_reducible apply zr_add
    | with_reducible apply zc_sub
    | with_reducible apply zr_sub

theorem z_thermal_d_i_m_m_i {q : ℝ} (hq : 0 < q) (om : T1) (p : ℝ) (m1 : ℝ) (m2 : ℝ) : Tendsto (fun b : ℝ => thermal.d_i_m_m_i q om p m1 m2 b) atTop (𝓝 0) := by
  simp only [thermal.d_i_m_m_i, toC_real, toC_complex, toC_ofR, ofR_real, ofR_complex, map_add, map_sub, map_neg, map_mul, map_div₀, map_inv₀]
  repeat' first
    | with_reducible exact z_bose (zt_energy_pos hq _)
    | with_reducible exact z_bose hq
    | with_reducible apply z_ofReal
    | with_reducible apply zc_mul_const
    | with_reducible apply zr_mul_const
    | with_reducible apply zc_const_mul
    | with_reducible apply zr_const_mul
    | with_reducible apply zc_div_const
    | with_reducible apply zr_div_const
    | with_reducible apply zc_neg
    | with_reducible apply zr_neg
    | with_reducible apply zc_add
    | with_reducible apply zr_add
    | with_reducible apply zc_sub
    | with_reducible apply zr_sub

theorem z_thermal_d_i_m_m_i_same_mass {q : ℝ} (hq : 0 < q) (om : T1) (p : T2) (m : ℝ) : Tendsto (fun b : ℝ => thermal.d_i_m_m_i_same_mass q om p m b) atTop (𝓝 0) := by
  simp only [thermal.d_i_m_m_i_same_mass, toC_real, toC_complex, toC_ofR, ofR_real, ofR_complex, map_add, map_sub, map_neg, map_mul, map_div₀, map_inv₀]
  repeat' first
    | with_reducible exact z_bose (zt_energy_pos hq _)
    | with_reducible exact z_bose hq
    | with_reducible apply z_ofReal
    | with_reducible apply zc_mul_const
    | with_reducible apply zr_mul_const
    | with_reducible apply zc_const_mul
    | with_reducible apply zr_const_mul
    | with_reducible apply zc_div_const
    | with_reducible apply zr_div_const
    | with_reducible apply zc_neg
    | with_reducible apply zr_neg
    | with_reducible apply zc_add
    | with_reducible apply zr_add
    | with_reducible apply zc_sub
    | with_reducible apply zr_sub

theorem z_thermal_d_i_m_0_i {q : ℝ} (hq : 0 < q) (om : T1) (p : T2) (m : ℝ) : Tendsto (fun b : ℝ => thermal.d_i_m_0_i q om p m b) atTop (𝓝 0) := by
  simp only [thermal.d_i_m_0_i, toC_real, toC_complex, toC_ofR, ofR_real, ofR_complex, map_add, map_sub, map_neg, map_mul, map_div₀, map_inv₀]
  repeat' first
    | with_reducible exact z_bose (zt_energy_pos hq _)
    | with_reducible exact z_bose hq
    | with_reducible apply z_ofReal
    | with_reducible apply zc_mul_const
    | with_reducible apply zr_mul_const
    | with_reducible apply zc_const_mul
    | with_reducible apply zr_const_mul
    | with_reducible apply zc_div_const
    | with_reducible apply zr_div_const
    | with_reducible apply zc_neg
    | with_reducible apply zr_neg
    | with_reducible apply zc_add
    | with_reducible apply zr_add
    | with_reducible apply zc_sub
    | with_reducible apply zr_sub

theorem z_thermal_d_i_0_0_i {q : ℝ} (hq : 0 < q) (om : T) (p : ℝ) : Tendsto (fun b : ℝ => thermal.d_i_0_0_i q om p b) atTop (𝓝 0) := by
  simp only [thermal.d_i_0_0_i, toC_real, toC_complex, toC_ofR, ofR_real, ofR_complex, map_add, map_sub, map_neg, map_mul, map_div₀, map_inv₀]
  repeat' first
    | with_reducible exact z_bose (zt_energy_pos hq _)
    | with_reducible exact z_bose hq
    | with_reducible apply z_ofReal
    | with_reducible apply zc_mul_const
    | with_reducible apply zr_mul_const
    | with_reducible apply zc_const_mul
    | with_reducible apply zr_const_mul
    | with_reducible apply zc_div_const
    | with_reducible apply zr_div_const
    | with_reducible apply zc_neg
    | with_reducible apply zr_neg
    | with_reducible apply zc_add
    | with_reducible apply zr_add
    | with_reducible apply zc_sub
    | with_reducible apply zr_sub

theorem z_thermal_d_i_m_m_l_i {q : ℝ} (hq : 0 < q) (om : T1) (p : ℝ) (m1 : ℝ) (m2 : ℝ) : Tendsto (fun b : ℝ => thermal.d_i_m_m_l_i q om p m1 m2 b) atTop (𝓝 0) := by
  simp only [thermal.d_i_m_m_l_i, toC_real, toC_complex, toC_ofR, ofR_real, ofR_complex, map_add, map_sub, map_neg, map_mul, map_div₀, map_inv₀]
  repeat' first
    | with_reducible exact z_bose (zt_energy_pos hq _)
    | with_reducible exact z_bose hq
    | with_reducible apply z_ofReal
    | with_reducible apply zc_mul_const
    | with_reducible apply zr_mul_const
    | with_reducible apply zc_const_mul
    | with_reducible apply zr_const_mul
    | with_reducible apply zc_div_const
    | with_reducible apply zr_div_const
    | with_reducible apply zc_neg
    | with_reducible apply zr_neg
    | with_reducible apply zc_add
    | with_reducible apply zr_add
    | with_reducible apply zc_sub
    | with_reducible apply zr_sub

theorem z_thermal_d_i_m_m_l_i_same_mass {q : ℝ} (hq : 0 < q) (om : T1) (p : T2) (m : ℝ) : Tendsto (fun b : ℝ => thermal.d_i_m_m_l_i_same_mass q om p m b) atTop (𝓝 0) := by
  simp only [thermal.d_i_m_m_l_i_same_mass, toC_real, toC_complex, toC_ofR, ofR_real, ofR_complex, map_add, map_sub, map_neg, map_mul, map_div₀, map_inv₀]
  repeat' first
    | with_reducible exact z_bose (zt_energy_pos hq _)
    | with_reducible exact z_bose hq
    | with_reducible apply z_ofReal
    | with_reducible apply zc_mul_const
    | with_reducible apply zr_mul_const
    | with_reducible apply zc_const_mul
    | with_reducible apply zr_const_mul
    | with_reducible apply zc_div_const
    | with_reducible apply zr_div_const
    | with_reducible apply zc_neg
    | with_reducible apply zr_neg
    | with_reducible apply zc_add
    | with_reducible apply zr_add
    | with_reducible apply zc_sub
    | with_reducible apply zr_sub

theorem z_thermal_d_i_m_0_l_i {q : ℝ} (hq : 0 < q) (om : T1) (p : T2) (m : ℝ) : Tendsto (fun b : ℝ => thermal.d_i_m_0_l_i q om p m b) atTop (𝓝 0) := by
  simp only [thermal.d_i_m_0_l_i, toC_real, toC_complex, toC_ofR, ofR_real, ofR_complex, map_add, map_sub, map_neg, map_mul, map_div₀, map_inv₀]
  repeat' first
    | with_reducible exact z_bose (zt_energy_pos hq _)
    | with_reducible exact z_bose hq
    | with_reducible apply z_ofReal
    | with_reducible apply zc_mul_const
    | with_reducible apply zr_mul_const
    | with_reducible apply zc_const_mul
    | with_reducible apply zr_const_mul
    | with_reducible apply zc_div_const
    | with_reducible apply zr_div_const
    | with_reducible apply zc_neg
    | with_reducible apply zr_neg
    | with_reducible apply zc_add
    | with_reducible apply zr_add
    | with_reducible apply zc_sub
    | with_reducible apply zr_sub

theorem z_thermal_d_i_0_0_l_i {q : ℝ} (hq : 0 < q) (om : T) (p : ℝ) : Tendsto (fun b : ℝ => thermal.d_i_0_0_l_i q om p b) atTop (𝓝 0) := by
  simp only [thermal.d_i_0_0_l_i, toC_real, toC_complex, toC_ofR, ofR_real, ofR_complex, map_add, map_sub, map_neg, map_mul, map_div₀, map_inv₀]
  repeat' first
    | with_reducible exact z_bose (zt_energy_pos hq _)
    | with_reducible exact z_bose hq
    | with_reducible apply z_ofReal
    | with_reducible apply zc_mul_const
    | with_reducible apply zr_mul_const
    | with_reducible apply zc_const_mul
    | with_reducible apply zr_const_mul
    | with_reducible apply zc_div_const
    | with_reducible apply zr_div_const
    | with_reducible apply zc_neg
    | with_reducible apply zr_neg
    | with_reducible apply zc_add
    | with_reducible apply zr_add
    | with_reducible apply zc_sub
    | with_reducible apply zr_sub

theorem z_thermal_d_i_m_m_t_i {q : ℝ} (hq : 0 < q) (om : T1) (p : ℝ) (m1 : ℝ) (m2 : ℝ) : Tendsto (fun b : ℝ => thermal.d_i_m_m_t_i q om p m1 m2 b) atTop (𝓝 0) := by
  simp only [thermal.d_i_m_m_t_i, toC_real, toC_complex, toC_ofR, ofR_real, ofR_complex, map_add, map_sub, map_neg, map_mul, map_div₀, map_inv₀]
  repeat' first
    | with_reducible exact z_bose (zt_energy_pos hq _)
    | with_reducible exact z_bose hq
    | with_reducible apply z_ofReal
    | with_reducible apply zc_mul_const
    | with_reducible apply zr_mul_const
    | with_reducible apply zc_const_mul
    | with_reducible apply zr_const_mul
    | with_reducible apply zc_div_const
    | with_reducible apply zr_div_const
    | with_reducible apply zc_neg
    | with_reducible apply zr_neg
    | with_reducible apply zc_add
    | with_reducible apply zr_add
    | with_reducible apply zc_sub
    | with_reducible apply zr_sub

theorem z_thermal_d_i_m_m_t_i_same_mass {q : ℝ} (hq : 0 < q) (om : T1) (p : ℝ) (m : ℝ) : Tendsto (fun b : ℝ => thermal.d_i_m_m_t_i_same_mass q om p m b) atTop (𝓝 0) := by
  simp only [thermal.d_i_m_m_t_i_same_mass, toC_real, toC_complex, toC_ofR, ofR_real, ofR_complex, map_add, map_sub, map_neg, map_mul, map_div₀, map_inv₀]
  repeat' first
    | with_reducible exact z_bose (zt_energy_pos hq _)
    | with_reducible exact z_bose hq
    | with_reducible apply z_ofReal
    | with_reducible apply zc_mul_const
    | with_reducible apply zr_mul_const
    | with_reducible apply zc_const_mul
    | with_reducible apply zr_const_mul
    | with_reducible apply zc_div_const
    | with_reducible apply zr_div_const
    | with_reducible apply zc_neg
    | with_reducible apply zr_neg
    | with_reducible apply zc_add
    | with_reducible apply zr_add
    | with_reducible apply zc_sub
    | with_reducible apply zr_sub

theorem z_thermal_d_i_m_0_t_i {q : ℝ} (hq : 0 < q) (om : T1) (p : ℝ) (m : ℝ) : Tendsto (fun b : ℝ => thermal.d_i_m_0_t_i q om p m b) atTop (𝓝 0) := by
  simp only [thermal.d_i_m_0_t_i, toC_real, toC_complex, toC_ofR, ofR_real, ofR_complex, map_add, map_sub, map_neg, map_mul, map_div₀, map_inv₀]
  repeat' first
    | with_reducible exact z_bose (zt_energy_pos hq _)
    | with_reducible exact z_bose hq
    | with_reducible apply z_ofReal
    | with_reducible apply zc_mul_const
    | with_reducible apply zr_mul_const
    | with_reducible apply zc_const_mul
    | with_reducible apply zr_const_mul
    | with_reducible apply zc_div_const
    | with_reducible apply zr_div_const
    | with_reducible apply zc_neg
    | with_reducible apply zr_neg
    | with_reducible apply zc_add
    | with_reducible apply zr_add
    | with_reducible apply zc_sub
    | with_reducible apply zr_sub

theorem z_thermal_d_i_0_0_t_i {q : ℝ} (hq : 0 < q) (om : T) (p : ℝ) : Tendsto (fun b : ℝ => thermal.d_i_0_0_t_i q om p b) atTop (𝓝 0) := by
  simp only [thermal.d_i_0_0_t_i, toC_real, toC_complex, toC_ofR, ofR_real, ofR_complex, map_add, map_sub, map_neg, map_mul, map_div₀, map_inv₀]
  repeat' first
    | with_reducible exact z_bose (zt_energy_pos hq _)
    | with_reducible exact z_bose hq
    | with_reducible apply z_ofReal
    | with_reducible apply zc_mul_const
    | with_reducible apply zr_mul_const
    | with_reducible apply zc_const_mul
    | with_reducible apply zr_const_mul
    | with_reducible apply zc_div_const
    | with_reducible apply zr_div_const
    | with_reducible apply zc_neg
    | with_reducible apply zr_neg
    | with_reducible apply zc_add
    | with_reducible apply zr_add
    | with_reducible apply zc_sub
    | with_reducible apply zr_sub

theorem z_thermal_zero_momentum_i_m_m_i {q : ℝ} (hq : 0 < q) (om : T1) (m1 : ℝ) (m2 : ℝ) : Tendsto (fun b : ℝ => thermal.zero_momentum.i_m_m_i q om m1 m2 b) atTop (𝓝 0) := by
  simp only [thermal.zero_momentum.i_m_m_i, toC_real, toC_complex, toC_ofR, ofR_real, ofR_complex, map_add, map_sub, map_neg, map_mul, map_div₀, map_inv₀]
  repeat' first
    | with_reducible exact z_bose (zt_energy_pos hq _)
    | with_reducible exact z_bose hq
    | with_reducible apply z_ofReal
    | with_reducible apply zc_mul_const
    | with_reducible apply zr_mul_const
    | with_reducible apply zc_const_mul
    | with_reducible apply zr_const_mul
    | with_reducible apply zc_div_const
    | with_reducible apply zr_div_const
    | with_reducible apply zc_neg
    | with_reducible apply zr_neg
    | with_reducible apply zc_add
    | with_reducible apply zr_add
    | with_reducible apply zc_sub
    | with_reducible apply zr_sub

theorem z_thermal_zero_momentum_i_m_m_i_same_mass {q : ℝ} (hq : 0 < q) (om : T1) (m : ℝ) : Tendsto (fun b : ℝ => thermal.zero_momentum.i_m_m_i_same_mass q om m b) atTop (𝓝 0) := by
  simp only [thermal.zero_momentum.i_m_m_i_same_mass, toC_real, toC_complex, toC_ofR, ofR_real, ofR_complex, map_add, map_sub, map_neg, map_mul, map_div₀, map_inv₀]
  repeat' first
    | with_reducible exact z_bose (zt_energy_pos hq _)
    | with_reducible exact z_bose hq
    | with_reducible apply z_ofReal
    | with_reducible apply zc_mul_const
    | with_reducible apply zr_mul_const
    | with_reducible apply zc_const_mul
    | with_reducible apply zr_const_mul
    | with_reducible apply zc_div_const
    | with_reducible apply zr_div_const
    | with_reducible apply zc_neg
    | with_reducible apply zr_neg
    | with_reducible apply zc_add
    | with_reducible apply zr_add
    | with_reducible apply zc_sub
    | with_reducible apply zr_sub

theorem z_thermal_zero_momentum_i_m_0_i {q : ℝ} (hq : 0 < q) (om : T1) (m : ℝ) : Tendsto (fun b : ℝ => thermal.zero_momentum.i_m_0_i q om m b) atTop (𝓝 0) := by
  simp only [thermal.zero_momentum.i_m_0_i, toC_real, toC_complex, toC_ofR, ofR_real, ofR_complex, map_add, map_sub, map_neg, map_mul, map_div₀, map_inv₀]
  repeat' first
    | with_reducible exact z_bose (zt_energy_pos hq _)
    | with_reducible exact z_bose hq
    | with_reducible apply z_ofReal
    | with_reducible apply zc_mul_const
    | with_reducible apply zr_mul_const
    | with_reducible apply zc_const_mul
    | with_reducible apply zr_const_mul
    | with_reducible apply zc_div_const
    | with_reducible apply zr_div_const
    | with_reducible apply zc_neg
    | with_reducible apply zr_neg
    | with_reducible apply zc_add
    | with_reducible apply zr_add
    | with_reducible apply zc_sub
    | with_reducible apply zr_sub

theorem z_thermal_zero_momentum_i_0_0_i {q : ℝ} (hq : 0 < q) (om : T) : Tendsto (fun b : ℝ => thermal.zero_momentum.i_0_0_i q om b) atTop (𝓝 0) := by
  simp only [thermal.zero_momentum.i_0_0_i, toC_real, toC_complex, toC_ofR, ofR_real, ofR_complex, map_add, map_sub, map_neg, map_mul, map_div₀, map_inv₀]
  repeat' first
    | with_reducible exact z_bose (zt_energy_pos hq _)
    | with_reducible exact z_bose hq
    | with_reducible apply z_ofReal
    | with_reducible apply zc_mul_const
    | with_reducible apply zr_mul_const
    | with_reducible apply zc_const_mul
    | with_reducible apply zr_const_mul
    | with_reducible apply zc_div_const
    | with_reducible apply zr_div_const
    | with_reducible apply zc_neg
    | with_reducible apply zr_neg
    | with_reducible apply zc_add
    | with_reducible apply zr_add
    | with_reducible apply zc_sub
    | with_reducible apply zr_sub

theorem z_thermal_zero_momentum_i_m_m_l_i {q : ℝ} (hq : 0 < q) (om : T1) (m1 : ℝ) (m2 : ℝ) : Tendsto (fun b : ℝ => thermal.zero_momentum.i_m_m_l_i q om m1 m2 b) atTop (𝓝 0) := by
  simp only [thermal.zero_momentum.i_m_m_l_i, toC_real, toC_complex, toC_ofR, ofR_real, ofR_complex, map_add, map_sub, map_neg, map_mul, map_div₀, map_inv₀]
  repeat' first
    | with_reducible exact z_bose (zt_energy_pos hq _)
    | with_reducible exact z_bose hq
    | with_reducible apply z_ofReal
    | with_reducible apply zc_mul_const
    | with_reducible apply zr_mul_const
    | with_reducible apply zc_const_mul
    | with_reducible apply zr_const_mul
    | with_reducible apply zc_div_const
    | with_reducible apply zr_div_const
    | with_reducible apply zc_neg
    | with_reducible apply zr_neg
    | with_reducible apply zc_add
    | with_reducible apply zr_add
    | with_reducible apply zc_sub
    | with_reducible apply zr_sub

theorem z_thermal_zero_momentum_i_m_m_l_i_same_mass {q : ℝ} (hq : 0 < q) (om : T1) (m : ℝ) : Tendsto (fun b : ℝ => thermal.zero_momentum.i_m_m_l_i_same_mass q om m b) atTop (𝓝 0) := by
  simp only [thermal.zero_momentum.i_m_m_l_i_same_mass, toC_real, toC_complex, toC_ofR, ofR_real, ofR_complex, map_add, map_sub, map_neg, map_mul, map_div₀, map_inv₀]
  repeat' first
    | with_reducible exact z_bose (zt_energy_pos hq _)
    | with_reducible exact z_bose hq
    | with_reducible apply z_ofReal
    | with_reducible apply zc_mul_const
    | with_reducible apply zr_mul_const
    | with_reducible apply zc_const_mul
    | with_reducible apply zr_const_mul
    | with_reducible apply zc_div_const
    | with_reducible apply zr_div_const
    | with_reducible apply zc_neg
    | with_reducible apply zr_neg
    | with_reducible apply zc_add
    | with_reducible apply zr_add
    | with_reducible apply zc_sub
    | with_reducible apply zr_sub

theorem z_thermal_zero_momentum_i_m_0_l_i {q : ℝ} (hq : 0 < q) (om : T1) (m : ℝ) : Tendsto (fun b : ℝ => thermal.zero_momentum.i_m_0_l_i q om m b) atTop (𝓝 0) := by
  simp only [thermal.zero_momentum.i_m_0_l_i, toC_real, toC_complex, toC_ofR, ofR_real, ofR_complex, map_add, map_sub, map_neg, map_mul, map_div₀, map_inv₀]
  repeat' first
    | with_reducible exact z_bose (zt_energy_pos hq _)
    | with_reducible exact z_bose hq
    | with_reducible apply z_ofReal
    | with_reducible apply zc_mul_const
    | with_reducible apply zr_mul_const
    | with_reducible apply zc_const_mul
    | with_reducible apply zr_const_mul
    | with_reducible apply zc_div_const
    | with_reducible apply zr_div_const
    | with_reducible apply zc_neg
    | with_reducible apply zr_neg
    | with_reducible apply zc_add
    | with_reducible apply zr_add
    | with_reducible apply zc_sub
    | with_reducible apply zr_sub

theorem z_thermal_zero_momentum_i_0_0_l_i {q : ℝ} (hq : 0 < q) (om : T) : Tendsto (fun b : ℝ => thermal.zero_momentum.i_0_0_l_i q om b) atTop (𝓝 0) := by
  simp only [thermal.zero_momentum.i_0_0_l_i, toC_real, toC_complex, toC_ofR, ofR_real, ofR_complex, map_add, map_sub, map_neg, map_mul, map_div₀, map_inv₀]
  repeat' first
    | with_reducible exact z_bose (zt_energy_pos hq _)
    | with_reducible exact z_bose hq
    | with_reducible apply z_ofReal
    | with_reducible apply zc_mul_const
    | with_reducible apply zr_mul_const
    | with_reducible apply zc_const_mul
    | with_reducible apply zr_const_mul
    | with_reducible apply zc_div_const
    | with_reducible apply zr_div_const
    | with_reducible apply zc_neg
    | with_reducible apply zr_neg
    | with_reducible apply zc_add
    | with_reducible apply zr_add
    | with_reducible apply zc_sub
    | with_reducible apply zr_sub

theorem z_thermal_zero_momentum_i_m_m_t_i {q : ℝ} (hq : 0 < q) (om : T1) (m1 : ℝ) (m2 : ℝ) : Tendsto (fun b : ℝ => thermal.zero_momentum.i_m_m_t_i q om m1 m2 b) atTop (𝓝 0) := by
  simp only [thermal.zero_momentum.i_m_m_t_i, thermal.zero_momentum.i_m_m_l_i, toC_real, toC_complex, toC_ofR, ofR_real, ofR_complex, map_add, map_sub, map_neg, map_mul, map_div₀, map_inv₀]
  repeat' first
    | with_reducible exact z_bose (zt_energy_pos hq _)
    | with_reducible exact z_bose hq
    | with_reducible apply z_ofReal
    | with_reducible apply zc_mul_const
    | with_reducible apply zr_mul_const
    | with_reducible apply zc_const_mul
    | with_reducible apply zr_const_mul
    | with_reducible apply zc_div_const
    | with_reducible apply zr_div_const
    | with_reducible apply zc_neg
    | with_reducible apply zr_neg
    | with_reducible apply zc_add
    | with_reducible apply zr_add
    | with_reducible apply zc_sub
    | with_reducible apply zr_sub

theorem z_thermal_zero_momentum_i_m_m_t_i_same_mass {q : ℝ} (hq : 0 < q) (om : T1) (m : ℝ) : Tendsto (fun b : ℝ => thermal.zero_momentum.i_m_m_t_i_same_mass q om m b) atTop (𝓝 0) := by
  simp only [thermal.zero_momentum.i_m_m_t_i_same_mass, thermal.zero_momentum.i_m_m_l_i_same_mass, toC_real, toC_complex, toC_ofR, ofR_real, ofR_complex, map_add, map_sub, map_neg, map_mul, map_div₀, map_inv₀]
  repeat' first
    | with_reducible exact z_bose (zt_energy_pos hq _)
    | with_reducible exact z_bose hq
    | with_reducible apply z_ofReal
    | with_reducible apply zc_mul_const
    | with_reducible apply zr_mul_const
    | with_reducible apply zc_const_mul
    | with_reducible apply zr_const_mul
    | with_reducible apply zc_div_const
    | with_reducible apply zr_div_const
    | with_reducible apply zc_neg
    | with_reducible apply zr_neg
    | with_reducible apply zc_add
    | with_reducible apply zr_add
    | with_reducible apply zc_sub
    | with_reducible apply zr_sub

theorem z_thermal_zero_momentum_i_m_0_t_i {q : ℝ} (hq : 0 < q) (om : T1) (m : ℝ) : Tendsto (fun b : ℝ => thermal.zero_momentum.i_m_0_t_i q om m b) atTop (𝓝 0) := by
  simp only [thermal.zero_momentum.i_m_0_t_i, thermal.zero_momentum.i_m_0_l_i, toC_real, toC_complex, toC_ofR, ofR_real, ofR_complex, map_add, map_sub, map_neg, map_mul, map_div₀, map_inv₀]
  repeat' first
    | with_reducible exact z_bose (zt_energy_pos hq _)
    | with_reducible exact z_bose hq
    | with_reducible apply z_ofReal
    | with_reducible apply zc_mul_const
    | with_reducible apply zr_mul_const
    | with_reducible apply zc_const_mul
    | with_reducible apply zr_const_mul
    | with_reducible apply zc_div_const
    | with_reducible apply zr_div_const
    | with_reducible apply zc_neg
    | with_reducible apply zr_neg
    | with_reducible apply zc_add
    | with_reducible apply zr_add
    | with_reducible apply zc_sub
    | with_reducible apply zr_sub

theorem z_thermal_zero_momentum_i_0_0_t_i {q : ℝ} (hq : 0 < q) (om : T) : Tendsto (fun b : ℝ => thermal.zero_momentum.i_0_0_t_i q om b) atTop (𝓝 0) := by
  simp only [thermal.zero_momentum.i_0_0_t_i, thermal.zero_momentum.i_0_0_l_i, toC_real, toC_complex, toC_ofR, ofR_real, ofR_complex, map_add, map_sub, map_neg, map_mul, map_div₀, map_inv₀]
  repeat' first
    | with_reducible exact z_bose (zt_energy_pos hq _)
    | with_reducible exact z_bose hq
    | with_reducible apply z_ofReal
    | with_reducible apply zc_mul_const
    | with_reducible apply zr_mul_const
    | with_reducible apply zc_const_mul
    | with_reducible apply zr_const_mul
    | with_reducible apply zc_div_const
    | with_reducible apply zr_div_const
    | with_reducible apply zc_neg
    | with_reducible apply zr_neg
    | with_reducible apply zc_add
    | with_reducible apply zr_add
    | with_reducible apply zc_sub
    | with_reducible apply zr_sub

theorem z_thermal_zero_momentum_d_i_m_m_i {q : ℝ} (hq : 0 < q) (om : T1) (m1 : ℝ) (m2 : ℝ) : Tendsto (fun b : ℝ => thermal.zero_momentum.d_i_m_m_i q om m1 m2 b) atTop (𝓝 0) := by
  simp only [thermal.zero_momentum.d_i_m_m_i, toC_real, toC_complex, toC_ofR, ofR_real, ofR_complex, map_add, map_sub, map_neg, map_mul, map_div₀, map_inv₀]
  repeat' first
    | with_reducible exact z_bose (zt_energy_pos hq _)
    | with_reducible exact z_bose hq
    | with_reducible apply z_ofReal
    | with_reducible apply zc_mul_const
    | with_reducible apply zr_mul_const
    | with_reducible apply zc_const_mul
    | with_reducible apply zr_const_mul
    | with_reducible apply zc_div_const
    | with_reducible apply zr_div_const
    | with_reducible apply zc_neg
    | with_reducible apply zr_neg
    | with_reducible apply zc_add
    | with_reducible apply zr_add
    | with_reducible apply zc_sub
    | with_reducible apply zr_sub

theorem z_thermal_zero_momentum_d_i_m_m_i_same_mass {q : ℝ} (hq : 0 < q) (om : T1) (m : ℝ) : Tendsto (fun b : ℝ => thermal.zero_momentum.d_i_m_m_i_same_mass q om m b) atTop (𝓝 0) := by
  simp only [thermal.zero_momentum.d_i_m_m_i_same_mass, toC_real, toC_complex, toC_ofR, ofR_real, ofR_complex, map_add, map_sub, map_neg, map_mul, map_div₀, map_inv₀]
  repeat' first
    | with_reducible exact z_bose (zt_energy_pos hq _)
    | with_reducible exact z_bose hq
    | with_reducible apply z_ofReal
    | with_reducible apply zc_mul_const
    | with_reducible apply zr_mul_const
    | with_reducible apply zc_const_mul
    | with_reducible apply zr_const_mul
    | with_reducible apply zc_div_const
    | with_reducible apply zr_div_const
    | with_reducible apply zc_neg
    | with_reducible apply zr_neg
    | with_reducible apply zc_add
    | with_reducible apply zr_add
    | with_reducible apply zc_sub
    | with_reducible apply zr_sub

theorem z_thermal_zero_momentum_d_i_m_0_i {q : ℝ} (hq : 0 < q) (om : T1) (m : ℝ) : Tendsto (fun b : ℝ => thermal.zero_momentum.d_i_m_0_i q om m b) atTop (𝓝 0) := by
  simp only [thermal.zero_momentum.d_i_m_0_i, toC_real, toC_complex, toC_ofR, ofR_real, ofR_complex, map_add, map_sub, map_neg, map_mul, map_div₀, map_inv₀]
  repeat' first
    | with_reducible exact z_bose (zt_energy_pos hq _)
    | with_reducible exact z_bose hq
    | with_reducible apply z_ofReal
    | with_reducible apply zc_mul_const
    | with_reducible apply zr_mul_const
    | with_reducible apply zc_const_mul
    | with_reducible apply zr_const_mul
    | with_reducible apply zc_div_const
    | with_reducible apply zr_div_const
    | with_reducible apply zc_neg
    | with_reducible apply zr_neg
    | with_reducible apply zc_add
    | with_reducible apply zr_add
    | with_reducible apply zc_sub
    | with_reducible apply zr_sub

theorem z_thermal_zero_momentum_d_i_0_0_i {q : ℝ} (hq : 0 < q) (om : T) : Tendsto (fun b : ℝ => thermal.zero_momentum.d_i_0_0_i q om b) atTop (𝓝 0) := by
  simp only [thermal.zero_momentum.d_i_0_0_i, toC_real, toC_complex, toC_ofR, ofR_real, ofR_complex, map_add, map_sub, map_neg, map_mul, map_div₀, map_inv₀]
  repeat' first
    | with_reducible exact z_bose (zt_energy_pos hq _)
    | with_reducible exact z_bose hq
    | with_reducible apply z_ofReal
    | with_reducible apply zc_mul_const
    | with_reducible apply zr_mul_const
    | with_reducible apply zc_const_mul
    | with_reducible apply zr_const_mul
    | with_reducible apply zc_div_const
    | with_reducible apply zr_div_const
    | with_reducible apply zc_neg
    | with_reducible apply zr_neg
    | with_reducible apply zc_add
    | with_reducible apply zr_add
    | with_reducible apply zc_sub
    | with_reducible apply zr_sub

theorem z_thermal_zero_momentum_d_i_m_m_l_i {q : ℝ} (hq : 0 < q) (om : T1) (m1 : ℝ) (m2 : ℝ) : Tendsto (fun b : ℝ => thermal.zero_momentum.d_i_m_m_l_i q om m1 m2 b) atTop (𝓝 0) := by
  simp only [thermal.zero_momentum.d_i_m_m_l_i, toC_real, toC_complex, toC_ofR, ofR_real, ofR_complex, map_add, map_sub, map_neg, map_mul, map_div₀, map_inv₀]
  repeat' first
    | with_reducible exact z_bose (zt_energy_pos hq _)
    | with_reducible exact z_bose hq
    | with_reducible apply z_ofReal
    | with_reducible apply zc_mul_const
    | with_reducible apply zr_mul_const
    | with_reducible apply zc_const_mul
    | with_reducible apply zr_const_mul
    | with_reducible apply zc_div_const
    | with_reducible apply zr_div_const
    | with_reducible apply zc_neg
    | with_reducible apply zr_neg
    | with_reducible apply zc_add
    | with_reducible apply zr_add
    | with_reducible apply zc_sub
    | with_reducible apply zr_sub

theorem z_thermal_zero_momentum_d_i_m_m_l_i_same_mass {q : ℝ} (hq : 0 < q) (om : T1) (m : ℝ) : Tendsto (fun b : ℝ => thermal.zero_momentum.d_i_m_m_l_i_same_mass q om m b) atTop (𝓝 0) := by
  simp only [thermal.zero_momentum.d_i_m_m_l_i_same_mass, toC_real, toC_complex, toC_ofR, ofR_real, ofR_complex, map_add, map_sub, map_neg, map_mul, map_div₀, map_inv₀]
  repeat' first
    | with_reducible exact z_bose (zt_energy_pos hq _)
    | with_reducible exact z_bose hq
    | with_reducible apply z_ofReal
    | with_reducible apply zc_mul_const
    | with_reducible apply zr_mul_const
    | with_reducible apply zc_const_mul
    | with_reducible apply zr_const_mul
    | with_reducible apply zc_div_const
    | with_reducible apply zr_div_const
    | with_reducible apply zc_neg
    | with_reducible apply zr_neg
    | with_reducible apply zc_add
    | with_reducible apply zr_add
    | with_reducible apply zc_sub
    | with_reducible apply zr_sub

theorem z_thermal_zero_momentum_d_i_m_0_l_i {q : ℝ} (hq : 0 < q) (om : T1) (m : ℝ) : Tendsto (fun b : ℝ => thermal.zero_momentum.d_i_m_0_l_i q om m b) atTop (𝓝 0) := by
  simp only [thermal.zero_momentum.d_i_m_0_l_i, toC_real, toC_complex, toC_ofR, ofR_real, ofR_complex, map_add, map_sub, map_neg, map_mul, map_div₀, map_inv₀]
  repeat' first
    | with_reducible exact z_bose (zt_energy_pos hq _)
    | with_reducible exact z_bose hq
    | with_reducible apply z_ofReal
    | with_reducible apply zc_mul_const
    | with_reducible apply zr_mul_const
    | with_reducible apply zc_const_mul
    | with_reducible apply zr_const_mul
    | with_reducible apply zc_div_const
    | with_reducible apply zr_div_const
    | with_reducible apply zc_neg
    | with_reducible apply zr_neg
    | with_reducible apply zc_add
    | with_reducible apply zr_add
    | with_reducible apply zc_sub
    | with_reducible apply zr_sub

theorem z_thermal_zero_momentum_d_i_0_0_l_i {q : ℝ} (hq : 0 < q) (om : T) : Tendsto (fun b : ℝ => thermal.zero_momentum.d_i_0_0_l_i q om b) atTop (𝓝 0) := by
  simp only [thermal.zero_momentum.d_i_0_0_l_i, toC_real, toC_complex, toC_ofR, ofR_real, ofR_complex, map_add, map_sub, map_neg, map_mul, map_div₀, map_inv₀]
  repeat' first
    | with_reducible exact z_bose (zt_energy_pos hq _)
    | with_reducible exact z_bose hq
    | with_reducible apply z_ofReal
    | with_reducible apply zc_mul_const
    | with_reducible apply zr_mul_const
    | with_reducible apply zc_const_mul
    | with_reducible apply zr_const_mul
    | with_reducible apply zc_div_const
    | with_reducible apply zr_div_const
    | with_reducible apply zc_neg
    | with_reducible apply zr_neg
    | with_reducible apply zc_add
    | with_reducible apply zr_add
    | with_reducible apply zc_sub
    | with_reducible apply zr_sub

theorem z_thermal_zero_momentum_d_i_m_m_t_i {q : ℝ} (hq : 0 < q) (om : T1) (m1 : ℝ) (m2 : ℝ) : Tendsto (fun b : ℝ => thermal.zero_momentum.d_i_m_m_t_i q om m1 m2 b) atTop (𝓝 0) := by
  simp only [thermal.zero_momentum.d_i_m_m_t_i, thermal.zero_momentum.d_i_m_m_l_i, toC_real, toC_complex, toC_ofR, ofR_real, ofR_complex, map_add, map_sub, map_neg, map_mul, map_div₀, map_inv₀]
  repeat' first
    | with_reducible exact z_bose (zt_energy_pos hq _)
    | with_reducible exact z_bose hq
    | with_reducible apply z_ofReal
    | with_reducible apply zc_mul_const
    | with_reducible apply zr_mul_const
    | with_reducible apply zc_const_mul
    | with_reducible apply zr_const_mul
    | with_reducible apply zc_div_const
    | with_reducible apply zr_div_const
    | with_reducible apply zc_neg
    | with_reducible apply zr_neg
    | with_reducible apply zc_add
    | with_reducible apply zr_add
    | with_reducible apply zc_sub
    | with_reducible apply zr_sub

theorem z_thermal_zero_momentum_d_i_m_m_t_i_same_mass {q : ℝ} (hq : 0 < q) (om : T1) (m : ℝ) : Tendsto (fun b : ℝ => thermal.zero_momentum.d_i_m_m_t_i_same_mass q om m b) atTop (𝓝 0) := by
  simp only [thermal.zero_momentum.d_i_m_m_t_i_same_mass, thermal.zero_momentum.d_i_m_m_l_i_same_mass, toC_real, toC_complex, toC_ofR, ofR_real, ofR_complex, map_add, map_sub, map_neg, map_mul, map_div₀, map_inv₀]
  repeat' first
    | with_reducible exact z_bose (zt_energy_pos hq _)
    | with_reducible exact z_bose hq
    | with_reducible apply z_ofReal
    | with_reducible apply zc_mul_const
    | with_reducible apply zr_mul_const
    | with_reducible apply zc_const_mul
    | with_reducible apply zr_const_mul
    | with_reducible apply zc_div_const
    | with_reducible apply zr_div_const
    | with_reducible apply zc_neg
    | with_reducible apply zr_neg
    | with_reducible apply zc_add
    | with_reducible apply zr_add
    | with_reducible apply zc_sub
    | with_reducible apply zr_sub

theorem z_thermal_zero_momentum_d_i_m_0_t_i {q : ℝ} (hq : 0 < q) (om : T1) (m : ℝ) : Tendsto (fun b : ℝ => thermal.zero_momentum.d_i_m_0_t_i q om m b) atTop (𝓝 0) := by
  simp only [thermal.zero_momentum.d_i_m_0_t_i, thermal.zero_momentum.d_i_m_0_l_i, toC_real, toC_complex, toC_ofR, ofR_real, ofR_complex, map_add, map_sub, map_neg, map_mul, map_div₀, map_inv₀]
  repeat' first
    | with_reducible exact z_bose (zt_energy_pos hq _)
    | with_reducible exact z_bose hq
    | with_reducible apply z_ofReal
    | with_reducible apply zc_mul_const
    | with_reducible apply zr_mul_const
    | with_reducible apply zc_const_mul
    | with_reducible apply zr_const_mul
    | with_reducible apply zc_div_const
    | with_reducible apply zr_div_const
    | with_reducible apply zc_neg
    | with_reducible apply zr_neg
    | with_reducible apply zc_add
    | with_reducible apply zr_add
    | with_reducible apply zc_sub
    | with_reducible apply zr_sub

theorem z_thermal_zero_momentum_d_i_0_0_t_i {q : ℝ} (hq : 0 < q) (om : T) : Tendsto (fun b : ℝ => thermal.zero_momentum.d_i_0_0_t_i q om b) atTop (𝓝 0) := by
  simp only [thermal.zero_momentum.d_i_0_0_t_i, thermal.zero_momentum.d_i_0_0_l_i, toC_real, toC_complex, toC_ofR, ofR_real, ofR_complex, map_add, map_sub, map_neg, map_mul, map_div₀, map_inv₀]
  repeat' first
    | with_reducible exact z_bose (zt_energy_pos hq _)
    | with_reducible exact z_bose hq
    | with_reducible apply z_ofReal
    | with_reducible apply zc_mul_const
    | with_reducible apply zr_mul_const
    | with_reducible apply zc_const_mul
    | with_reducible apply zr_const_mul
    | with_reducible apply zc_div_const
    | with_reducible apply zr_div_const
    | with_reducible apply zc_neg
    | with_reducible apply zr_neg
    | with_reducible apply zc_add
    | with_reducible apply zr_add
    | with_reducible apply zc_sub
    | with_reducible apply zr_sub

theorem z_thermal_zero_matsubara_i_m_m_i {q : ℝ} (hq : 0 < q) (p : ℝ) (m1 : ℝ) (m2 : ℝ) : Tendsto (fun b : ℝ => thermal.zero_matsubara.i_m_m_i q p m1 m2 b) atTop (𝓝 0) := by
  simp only [thermal.zero_matsubara.i_m_m_i, toC_real, toC_complex, toC_ofR, ofR_real, ofR_complex, map_add, map_sub, map_neg, map_mul, map_div₀, map_inv₀]
  repeat' first
    | with_reducible exact z_bose (zt_energy_pos hq _)
    | with_reducible exact z_bose hq
    | with_reducible apply z_ofReal
    | with_reducible apply zc_mul_const
    | with_reducible apply zr_mul_const
    | with_reducible apply zc_const_mul
    | with_reducible apply zr_const_mul
    | with_reducible apply zc_div_const
    | with_reducible apply zr_div_const
    | with_reducible apply zc_neg
    | with_reducible apply zr_neg
    | with_reducible apply zc_add
    | with_reducible apply zr_add
    | with_reducible apply zc_sub
    | with_reducible apply zr_sub

theorem z_thermal_zero_matsubara_i_m_m_i_same_mass {q : ℝ} (hq : 0 < q) (p : ℝ) (m : ℝ) : Tendsto (fun b : ℝ => thermal.zero_matsubara.i_m_m_i_same_mass q p m b) atTop (𝓝 0) := by
  simp only [thermal.zero_matsubara.i_m_m_i_same_mass, toC_real, toC_complex, toC_ofR, ofR_real, ofR_complex, map_add, map_sub, map_neg, map_mul, map_div₀, map_inv₀]
  repeat' first
    | with_reducible exact z_bose (zt_energy_pos hq _)
    | with_reducible exact z_bose hq
    | with_reducible apply z_ofReal
    | with_reducible apply zc_mul_const
    | with_reducible apply zr_mul_const
    | with_reducible apply zc_const_mul
    | with_reducible apply zr_const_mul
    | with_reducible apply zc_div_const
    | with_reducible apply zr_div_const
    | with_reducible apply zc_neg
    | with_reducible apply zr_neg
    | with_reducible apply zc_add
    | with_reducible apply zr_add
    | with_reducible apply zc_sub
    | with_reducible apply zr_sub

theorem z_thermal_zero_matsubara_i_m_0_i {q : ℝ} (hq : 0 < q) (p : ℝ) (m : ℝ) : Tendsto (fun b : ℝ => thermal.zero_matsubara.i_m_0_i q p m b) atTop (𝓝 0) := by
  simp only [thermal.zero_matsubara.i_m_0_i, toC_real, toC_complex, toC_ofR, ofR_real, ofR_complex, map_add, map_sub, map_neg, map_mul, map_div₀, map_inv₀]
  repeat' first
    | with_reducible exact z_bose (zt_energy_pos hq _)
    | with_reducible exact z_bose hq
    | with_reducible apply z_ofReal
    | with_reducible apply zc_mul_const
    | with_reducible apply zr_mul_const
    | with_reducible apply zc_const_mul
    | with_reducible apply zr_const_mul
    | with_reducible apply zc_div_const
    | with_reducible apply zr_div_const
    | with_reducible apply zc_neg
    | with_reducible apply zr_neg
    | with_reducible apply zc_add
    | with_reducible apply zr_add
    | with_reducible apply zc_sub
    | with_reducible apply zr_sub

theorem z_thermal_zero_matsubara_i_0_0_i {q : ℝ} (hq : 0 < q) (p : ℝ) : Tendsto (fun b : ℝ => thermal.zero_matsubara.i_0_0_i q p b) atTop (𝓝 0) := by
  simp only [thermal.zero_matsubara.i_0_0_i, toC_real, toC_complex, toC_ofR, ofR_real, ofR_complex, map_add, map_sub, map_neg, map_mul, map_div₀, map_inv₀]
  repeat' first
    | with_reducible exact z_bose (zt_energy_pos hq _)
    | with_reducible exact z_bose hq
    | with_reducible apply z_ofReal
    | with_reducible apply zc_mul_const
    | with_reducible apply zr_mul_const
    | with_reducible apply zc_const_mul
    | with_reducible apply zr_const_mul
    | with_reducible apply zc_div_const
    | with_reducible apply zr_div_const
    | with_reducible apply zc_neg
    | with_reducible apply zr_neg
    | with_reducible apply zc_add
    | with_reducible apply zr_add
    | with_reducible apply zc_sub
    | with_reducible apply zr_sub

theorem z_thermal_zero_matsubara_i_m_m_l_i {q : ℝ} (hq : 0 < q) (p : ℝ) (m1 : ℝ) (m2 : ℝ) : Tendsto (fun b : ℝ => thermal.zero_matsubara.i_m_m_l_i q p m1 m2 b) atTop (𝓝 0) := by
  simp only [thermal.zero_matsubara.i_m_m_l_i, toC_real, toC_complex, toC_ofR, ofR_real, ofR_complex, map_add, map_sub, map_neg, map_mul, map_div₀, map_inv₀]
  repeat' first
    | with_reducible exact z_bose (zt_energy_pos hq _)
    | with_reducible exact z_bose hq
    | with_reducible apply z_ofReal
    | with_reducible apply zc_mul_const
    | with_reducible apply zr_mul_const
    | with_reducible apply zc_const_mul
    | with_reducible apply zr_const_mul
    | with_reducible apply zc_div_const
    | with_reducible apply zr_div_const
    | with_reducible apply zc_neg
    | with_reducible apply zr_neg
    | with_reducible apply zc_add
    | with_reducible apply zr_add
    | with_reducible apply zc_sub
    | with_reducible apply zr_sub

theorem z_thermal_zero_matsubara_i_m_m_l_i_same_mass {q : ℝ} (hq : 0 < q) (p : ℝ) (m : ℝ) : Tendsto (fun b : ℝ => thermal.zero_matsubara.i_m_m_l_i_same_mass q p m b) atTop (𝓝 0) := by
  simp only [thermal.zero_matsubara.i_m_m_l_i_same_mass, toC_real, toC_complex, toC_ofR, ofR_real, ofR_complex, map_add, map_sub, map_neg, map_mul, map_div₀, map_inv₀]
  repeat' first
    | with_reducible exact z_bose (zt_energy_pos hq _)
    | with_reducible exact z_bose hq
    | with_reducible apply z_ofReal
    | with_reducible apply zc_mul_const
    | with_reducible apply zr_mul_const
    | with_reducible apply zc_const_mul
    | with_reducible apply zr_const_mul
    | with_reducible apply zc_div_const
    | with_reducible apply zr_div_const
    | with_reducible apply zc_neg
    | with_reducible apply zr_neg
    | with_reducible apply zc_add
    | with_reducible apply zr_add
    | with_reducible apply zc_sub
    | with_reducible apply zr_sub

theorem z_thermal_zero_matsubara_i_m_0_l_i {q : ℝ} (hq : 0 < q) (p : ℝ) (m : ℝ) : Tendsto (fun b : ℝ => thermal.zero_matsubara.i_m_0_l_i q p m b) atTop (𝓝 0) := by
  simp only [thermal.zero_matsubara.i_m_0_l_i, toC_real, toC_complex, toC_ofR, ofR_real, ofR_complex, map_add, map_sub, map_neg, map_mul, map_div₀, map_inv₀]
  repeat' first
    | with_reducible exact z_bose (zt_energy_pos hq _)
    | with_reducible exact z_bose hq
    | with_reducible apply z_ofReal
    | with_reducible apply zc_mul_const
    | with_reducible apply zr_mul_const
    | with_reducible apply zc_const_mul
    | with_reducible apply zr_const_mul
    | with_reducible apply zc_div_const
    | with_reducible apply zr_div_const
    | with_reducible apply zc_neg
    | with_reducible apply zr_neg
    | with_reducible apply zc_add
    | with_reducible apply zr_add
    | with_reducible apply zc_sub
    | with_reducible apply zr_sub

theorem z_thermal_zero_matsubara_i_0_0_l_i {q : ℝ} (hq : 0 < q) (p : ℝ) : Tendsto (fun b : ℝ => thermal.zero_matsubara.i_0_0_l_i q p b) atTop (𝓝 0) := by
  simp only [thermal.zero_matsubara.i_0_0_l_i, toC_real, toC_complex, toC_ofR, ofR_real, ofR_complex, map_add, map_sub, map_neg, map_mul, map_div₀, map_inv₀]
  repeat' first
    | with_reducible exact z_bose (zt_energy_pos hq _)
    | with_reducible exact z_bose hq
    | with_reducible apply z_ofReal
    | with_reducible apply zc_mul_const
    | with_reducible apply zr_mul_const
    | with_reducible apply zc_const_mul
    | with_reducible apply zr_const_mul
    | with_reducible apply zc_div_const
    | with_reducible apply zr_div_const
    | with_reducible apply zc_neg
    | with_reducible apply zr_neg
    | with_reducible apply zc_add
    | with_reducible apply zr_add
    | with_reducible apply zc_sub
    | with_reducible apply zr_sub

theorem z_thermal_zero_matsubara_i_m_m_t_i {q : ℝ} (hq : 0 < q) (p : ℝ) (m1 : ℝ) (m2 : ℝ) : Tendsto (fun b : ℝ => thermal.zero_matsubara.i_m_m_t_i q p m1 m2 b) atTop (𝓝 0) := by
  simp only [thermal.zero_matsubara.i_m_m_t_i, toC_real, toC_complex, toC_ofR, ofR_real, ofR_complex, map_add, map_sub, map_neg, map_mul, map_div₀, map_inv₀]
  repeat' first
    | with_reducible exact z_bose (zt_energy_pos hq _)
    | with_reducible exact z_bose hq
    | with_reducible apply z_ofReal
    | with_reducible apply zc_mul_const
    | with_reducible apply zr_mul_const
    | with_reducible apply zc_const_mul
    | with_reducible apply zr_const_mul
    | with_reducible apply zc_div_const
    | with_reducible apply zr_div_const
    | with_reducible apply zc_neg
    | with_reducible apply zr_neg
    | with_reducible apply zc_add
    | with_reducible apply zr_add
    | with_reducible apply zc_sub
    | with_reducible apply zr_sub

theorem z_thermal_zero_matsubara_i_m_m_t_i_same_mass {q : ℝ} (hq : 0 < q) (p : ℝ) (m : ℝ) : Tendsto (fun b : ℝ => thermal.zero_matsubara.i_m_m_t_i_same_mass q p m b) atTop (𝓝 0) := by
  simp only [thermal.zero_matsubara.i_m_m_t_i_same_mass, toC_real, toC_complex, toC_ofR, ofR_real, ofR_complex, map_add, map_sub, map_neg, map_mul, map_div₀, map_inv₀]
  repeat' first
    | with_reducible exact z_bose (zt_energy_pos hq _)
    | with_reducible exact z_bose hq
    | with_reducible apply z_ofReal
    | with_reducible apply zc_mul_const
    | with_reducible apply zr_mul_const
    | with_reducible apply zc_const_mul
    | with_reducible apply zr_const_mul
    | with_reducible apply zc_div_const
    | with_reducible apply zr_div_const
    | with_reducible apply zc_neg
    | with_reducible apply zr_neg
    | with_reducible apply zc_add
    | with_reducible apply zr_add
    | with_reducible apply zc_sub
    | with_reducible apply zr_sub

theorem z_thermal_zero_matsubara_i_m_0_t_i {q : ℝ} (hq : 0 < q) (p : ℝ) (m : ℝ) : Tendsto (fun b : ℝ => thermal.zero_matsubara.i_m_0_t_i q p m b) atTop (𝓝 0) := by
  simp only [thermal.zero_matsubara.i_m_0_t_i, toC_real, toC_complex, toC_ofR, ofR_real, ofR_complex, map_add, map_sub, map_neg, map_mul, map_div₀, map_inv₀]
  repeat' first
    | with_reducible exact z_bose (zt_energy_pos hq _)
    | with_reducible exact z_bose hq
    | with_reducible apply z_ofReal
    | with_reducible apply zc_mul_const
    | with_reducible apply zr_mul_const
    | with_reducible apply zc_const_mul
    | with_reducible apply zr_const_mul
    | with_reducible apply zc_div_const
    | with_reducible apply zr_div_const
    | with_reducible apply zc_neg
    | with_reducible apply zr_neg
    | with_reducible apply zc_add
    | with_reducible apply zr_add
    | with_reducible apply zc_sub
    | with_reducible apply zr_sub

theorem z_thermal_zero_matsubara_i_0_0_t_i {q : ℝ} (hq : 0 < q) (p : ℝ) : Tendsto (fun b : ℝ => thermal.zero_matsubara.i_0_0_t_i q p b) atTop (𝓝 0) := by
  simp only [thermal.zero_matsubara.i_0_0_t_i, toC_real, toC_complex, toC_ofR, ofR_real, ofR_complex, map_add, map_sub, map_neg, map_mul, map_div₀, map_inv₀]
  repeat' first
    | with_reducible exact z_bose (zt_energy_pos hq _)
    | with_reducible exact z_bose hq
    | with_reducible apply z_ofReal
    | with_reducible apply zc_mul_const
    | with_reducible apply zr_mul_const
    | with_reducible apply zc_const_mul
    | with_reducible apply zr_const_mul
    | with_reducible apply zc_div_const
    | with_reducible apply zr_div_const
    | with_reducible apply zc_neg
    | with_reducible apply zr_neg
    | with_reducible apply zc_add
    | with_reducible apply zr_add
    | with_reducible apply zc_sub
    | with_reducible apply zr_sub

theorem z_thermal_zero_matsubara_d_i_m_m_i {q : ℝ} (hq : 0 < q) (p : ℝ) (m1 : ℝ) (m2 : ℝ) : Tendsto (fun b : ℝ => thermal.zero_matsubara.d_i_m_m_i q p m1 m2 b) atTop (𝓝 0) := by
  simp only [thermal.zero_matsubara.d_i_m_m_i, toC_real, toC_complex, toC_ofR, ofR_real, ofR_complex, map_add, map_sub, map_neg, map_mul, map_div₀, map_inv₀]
  repeat' first
    | with_reducible exact z_bose (zt_energy_pos hq _)
    | with_reducible exact z_bose hq
    | with_reducible apply z_ofReal
    | with_reducible apply zc_mul_const
    | with_reducible apply zr_mul_const
    | with_reducible apply zc_const_mul
    | with_reducible apply zr_const_mul
    | with_reducible apply zc_div_const
    | with_reducible apply zr_div_const
    | with_reducible apply zc_neg
    | with_reducible apply zr_neg
    | with_reducible apply zc_add
    | with_reducible apply zr_add
    | with_reducible apply zc_sub
    | with_reducible apply zr_sub

theorem z_thermal_zero_matsubara_d_i_m_m_i_same_mass {q : ℝ} (hq : 0 < q) (p : ℝ) (m : ℝ) : Tendsto (fun b : ℝ => thermal.zero_matsubara.d_i_m_m_i_same_mass q p m b) atTop (𝓝 0) := by
  simp only [thermal.zero_matsubara.d_i_m_m_i_same_mass, toC_real, toC_complex, toC_ofR, ofR_real, ofR_complex, map_add, map_sub, map_neg, map_mul, map_div₀, map_inv₀]
  repeat' first
    | with_reducible exact z_bose (zt_energy_pos hq _)
    | with_reducible exact z_bose hq
    | with_reducible apply z_ofReal
    | with_reducible apply zc_mul_const
    | with_reducible apply zr_mul_const
    | with_reducible apply zc_const_mul
    | with_reducible apply zr_const_mul
    | with_reducible apply zc_div_const
    | with_reducible apply zr_div_const
    | with_reducible apply zc_neg
    | with_reducible apply zr_neg
    | with_reducible apply zc_add
    | with_reducible apply zr_add
    | with_reducible apply zc_sub
    | with_reducible apply zr_sub

theorem z_thermal_zero_matsubara_d_i_m_0_i {q : ℝ} (hq : 0 < q) (p : ℝ) (m : ℝ) : Tendsto (fun b : ℝ => thermal.zero_matsubara.d_i_m_0_i q p m b) atTop (𝓝 0) := by
  simp only [thermal.zero_matsubara.d_i_m_0_i, toC_real, toC_complex, toC_ofR, ofR_real, ofR_complex, map_add, map_sub, map_neg, map_mul, map_div₀, map_inv₀]
  repeat' first
    | with_reducible exact z_bose (zt_energy_pos hq _)
    | with_reducible exact z_bose hq
    | with_reducible apply z_ofReal
    | with_reducible apply zc_mul_const
    | with_reducible apply zr_mul_const
    | with_reducible apply zc_const_mul
    | with_reducible apply zr_const_mul
    | with_reducible apply zc_div_const
    | with_reducible apply zr_div_const
    | with_reducible apply zc_neg
    | with_reducible apply zr_neg
    | with_reducible apply zc_add
    | with_reducible apply zr_add
    | with_reducible apply zc_sub
    | with_reducible apply zr_sub

theorem z_thermal_zero_matsubara_d_i_0_0_i {q : ℝ} (hq : 0 < q) (p : ℝ) : Tendsto (fun b : ℝ => thermal.zero_matsubara.d_i_0_0_i q p b) atTop (𝓝 0) := by
  simp only [thermal.zero_matsubara.d_i_0_0_i, toC_real, toC_complex, toC_ofR, ofR_real, ofR_complex, map_add, map_sub, map_neg, map_mul, map_div₀, map_inv₀]
  repeat' first
    | with_reducible exact z_bose (zt_energy_pos hq _)
    | with_reducible exact z_bose hq
    | with_reducible apply z_ofReal
    | with_reducible apply zc_mul_const
    | with_reducible apply zr_mul_const
    | with_reducible apply zc_const_mul
    | with_reducible apply zr_const_mul
    | with_reducible apply zc_div_const
    | with_reducible apply zr_div_const
    | with_reducible apply zc_neg
    | with_reducible apply zr_neg
    | with_reducible apply zc_add
    | with_reducible apply zr_add
    | with_reducible apply zc_sub
    | with_reducible apply zr_sub

theorem z_thermal_zero_matsubara_d_i_m_m_l_i {q : ℝ} (hq : 0 < q) (p : ℝ) (m1 : ℝ) (m2 : ℝ) : Tendsto (fun b : ℝ => thermal.zero_matsubara.d_i_m_m_l_i q p m1 m2 b) atTop (𝓝 0) := by
  simp only [thermal.zero_matsubara.d_i_m_m_l_i, toC_real, toC_complex, toC_ofR, ofR_real, ofR_complex, map_add, map_sub, map_neg, map_mul, map_div₀, map_inv₀]
  repeat' first
    | with_reducible exact z_bose (zt_energy_pos hq _)
    | with_reducible exact z_bose hq
    | with_reducible apply z_ofReal
    | with_reducible apply zc_mul_const
    | with_reducible apply zr_mul_const
    | with_reducible apply zc_const_mul
    | with_reducible apply zr_const_mul
    | with_reducible apply zc_div_const
    | with_reducible apply zr_div_const
    | with_reducible apply zc_neg
    | with_reducible apply zr_neg
    | with_reducible apply zc_add
    | with_reducible apply zr_add
    | with_reducible apply zc_sub
    | with_reducible apply zr_sub

theorem z_thermal_zero_matsubara_d_i_m_m_l_i_same_mass {q : ℝ} (hq : 0 < q) (p : ℝ) (m : ℝ) : Tendsto (fun b : ℝ => thermal.zero_matsubara.d_i_m_m_l_i_same_mass q p m b) atTop (𝓝 0) := by
  simp only [thermal.zero_matsubara.d_i_m_m_l_i_same_mass, toC_real, toC_complex, toC_ofR, ofR_real, ofR_complex, map_add, map_sub, map_neg, map_mul, map_div₀, map_inv₀]
  repeat' first
    | with_reducible exact z_bose (zt_energy_pos hq _)
    | with_reducible exact z_bose hq
    | with_reducible apply z_ofReal
    | with_reducible apply zc_mul_const
    | with_reducible apply zr_mul_const
    | with_reducible apply zc_const_mul
    | with_reducible apply zr_const_mul
    | with_reducible apply zc_div_const
    | with_reducible apply zr_div_const
    | with_reducible apply zc_neg
    | with_reducible apply zr_neg
    | with_reducible apply zc_add
    | with_reducible apply zr_add
    | with_reducible apply zc_sub
    | with_reducible apply zr_sub

theorem z_thermal_zero_matsubara_d_i_m_0_l_i {q : ℝ} (hq : 0 < q) (p : ℝ) (m : ℝ) : Tendsto (fun b : ℝ => thermal.zero_matsubara.d_i_m_0_l_i q p m b) atTop (𝓝 0) := by
  simp only [thermal.zero_matsubara.d_i_m_0_l_i, toC_real, toC_complex, toC_ofR, ofR_real, ofR_complex, map_add, map_sub, map_neg, map_mul, map_div₀, map_inv₀]
  repeat' first
    | with_reducible exact z_bose (zt_energy_pos hq _)
    | with_reducible exact z_bose hq
    | with_reducible apply z_ofReal
    | with_reducible apply zc_mul_const
    | with_reducible apply zr_mul_const
    | with_reducible apply zc_const_mul
    | with_reducible apply zr_const_mul
    | with_reducible apply zc_div_const
    | with_reducible apply zr_div_const
    | with_reducible apply zc_neg
    | with_reducible apply zr_neg
    | with_reducible apply zc_add
    | with_reducible apply zr_add
    | with_reducible apply zc_sub
    | with_reducible apply zr_sub

theorem z_thermal_zero_matsubara_d_i_0_0_l_i {q : ℝ} (hq : 0 < q) (p : ℝ) : Tendsto (fun b : ℝ => thermal.zero_matsubara.d_i_0_0_l_i q p b) atTop (𝓝 0) := by
  simp only [thermal.zero_matsubara.d_i_0_0_l_i, toC_real, toC_complex, toC_ofR, ofR_real, ofR_complex, map_add, map_sub, map_neg, map_mul, map_div₀, map_inv₀]
  repeat' first
    | with_reducible exact z_bose (zt_energy_pos hq _)
    | with_reducible exact z_bose hq
    | with_reducible apply z_ofReal
    | with_reducible apply zc_mul_const
    | with_reducible apply zr_mul_const
    | with_reducible apply zc_const_mul
    | with_reducible apply zr_const_mul
    | with_reducible apply zc_div_const
    | with_reducible apply zr_div_const
    | with_reducible apply zc_neg
    | with_reducible apply zr_neg
    | with_reducible apply zc_add
    | with_reducible apply zr_add
    | with_reducible apply zc_sub
    | with_reducible apply zr_sub

theorem z_thermal_zero_matsubara_d_i_m_m_t_i {q : ℝ} (hq : 0 < q) (p : ℝ) (m1 : ℝ) (m2 : ℝ) : Tendsto (fun b : ℝ => thermal.zero_matsubara.d_i_m_m_t_i q p m1 m2 b) atTop (𝓝 0) := by
  simp only [thermal.zero_matsubara.d_i_m_m_t_i, toC_real, toC_complex, toC_ofR, ofR_real, ofR_complex, map_add, map_sub, map_neg, map_mul, map_div₀, map_inv₀]
  repeat' first
    | with_reducible exact z_bose (zt_energy_pos hq _)
    | with_reducible exact z_bose hq
    | with_reducible apply z_ofReal
    | with_reducible apply zc_mul_const
    | with_reducible apply zr_mul_const
    | with_reducible apply zc_const_mul
    | with_reducible apply zr_const_mul
    | with_reducible apply zc_div_const
    | with_reducible apply zr_div_const
    | with_reducible apply zc_neg
    | with_reducible apply zr_neg
    | with_reducible apply zc_add
    | with_reducible apply zr_add
    | with_reducible apply zc_sub
    | with_reducible apply zr_sub

theorem z_thermal_zero_matsubara_d_i_m_m_t_i_same_mass {q : ℝ} (hq : 0 < q) (p : ℝ) (m : ℝ) : Tendsto (fun b : ℝ => thermal.zero_matsubara.d_i_m_m_t_i_same_mass q p m b) atTop (𝓝 0) := by
  simp only [thermal.zero_matsubara.d_i_m_m_t_i_same_mass, toC_real, toC_complex, toC_ofR, ofR_real, ofR_complex, map_add, map_sub, map_neg, map_mul, map_div₀, map_inv₀]
  repeat' first
    | with_reducible exact z_bose (zt_energy_pos hq _)
    | with_reducible exact z_bose hq
    | with_reducible apply z_ofReal
    | with_reducible apply zc_mul_const
    | with_reducible apply zr_mul_const
    | with_reducible apply zc_const_mul
    | with_reducible apply zr_const_mul
    | with_reducible apply zc_div_const
    | with_reducible apply zr_div_const
    | with_reducible apply zc_neg
    | with_reducible apply zr_neg
    | with_reducible apply zc_add
    | with_reducible apply zr_add
    | with_reducible apply zc_sub
    | with_reducible apply zr_sub

theorem z_thermal_zero_matsubara_d_i_m_0_t_i {q : ℝ} (hq : 0 < q) (p : ℝ) (m : ℝ) : Tendsto (fun b : ℝ => thermal.zero_matsubara.d_i_m_0_t_i q p m b) atTop (𝓝 0) := by
  simp only [thermal.zero_matsubara.d_i_m_0_t_i, toC_real, toC_complex, toC_ofR, ofR_real, ofR_complex, map_add, map_sub, map_neg, map_mul, map_div₀, map_inv₀]
  repeat' first
    | with_reducible exact z_bose (zt_energy_pos hq _)
    | with_reducible exact z_bose hq
    | with_reducible apply z_ofReal
    | with_reducible apply zc_mul_const
    | with_reducible apply zr_mul_const
    | with_reducible apply zc_const_mul
    | with_reducible apply zr_const_mul
    | with_reducible apply zc_div_const
    | with_reducible apply zr_div_const
    | with_reducible apply zc_neg
    | with_reducible apply zr_neg
    | with_reducible apply zc_add
    | with_reducible apply zr_add
    | with_reducible apply zc_sub
    | with_reducible apply zr_sub

theorem z_thermal_zero_matsubara_d_i_0_0_t_i {q : ℝ} (hq : 0 < q) (p : ℝ) : Tendsto (fun b : ℝ => thermal.zero_matsubara.d_i_0_0_t_i q p b) atTop (𝓝 0) := by
  simp only [thermal.zero_matsubara.d_i_0_0_t_i, toC_real, toC_complex, toC_ofR, ofR_real, ofR_complex, map_add, map_sub, map_neg, map_mul, map_div₀, map_inv₀]
  repeat' first
    | with_reducible exact z_bose (zt_energy_pos hq _)
    | with_reducible exact z_bose hq
    | with_reducible apply z_ofReal
    | with_reducible apply zc_mul_const
    | with_reducible apply zr_mul_const
    | with_reducible apply zc_const_mul
    | with_reducible apply zr_const_mul
    | with_reducible apply zc_div_const
    | with_reducible apply zr_div_const
    | with_reducible apply zc_neg
    | with_reducible apply zr_neg
    | with_reducible apply zc_add
    | with_reducible apply zr_add
    | with_reducible apply zc_sub
    | with_reducible apply zr_sub

end

/-! ### The thermal parts -/

theorem fermi_double_tendsto {q : ℝ} (hq : 0 < q) (mq mu : ℝ) (hF : energy q mq ≠ |mu|) :
    Tendsto (fun b : ℝ => fermi_distribution_double (energy q mq) b mu) atTop
      (𝓝 (fermi_distribution_double_zero_temp (energy q mq) mu)) := by
  have hen := zt_energy_pos hq mq
  refine C15_double_limit _ _ ?_ ?_
  · intro h
    rw [h] at hF hen
    exact hF (abs_of_pos hen).symm
  · intro h
    have : mu < 0 := by linarith
    rw [h, abs_of_neg this] at hF
    exact hF rfl

theorem tendsto_ofReal {f : ℝ → ℝ} {x : ℝ} (h : Tendsto f atTop (𝓝 x)) :
    Tendsto (fun b => ((f b : ℝ) : ℂ)) atTop (𝓝 (x : ℂ)) :=
  (Complex.continuous_ofReal.tendsto x).comp h

attribute [local irreducible] thermal.j_m_i thermal.j_0_i thermal.j_m_l_i thermal.j_0_l_i thermal.j_m_t_i thermal.j_0_t_i thermal.i_m_m_i thermal.i_m_m_i_same_mass thermal.i_m_0_i thermal.i_0_0_i thermal.i_m_m_l_i thermal.i_m_m_l_i_same_mass thermal.i_m_0_l_i thermal.i_0_0_l_i thermal.i_m_m_t_i thermal.i_m_m_t_i_same_mass thermal.i_m_0_t_i thermal.i_0_0_t_i thermal.d_j_m_i thermal.d_j_0_i thermal.d2_j_m_i thermal.d2_j_0_i thermal.d_j_m_l_i thermal.d_j_0_l_i thermal.d2_j_m_l_i thermal.d2_j_0_l_i thermal.d_j_m_t_i thermal.d_j_0_t_i thermal.d2_j_m_t_i thermal.d2_j_0_t_i thermal.d_i_m_m_i thermal.d_i_m_m_i_same_mass thermal.d_i_m_0_i thermal.d_i_0_0_i thermal.d_i_m_m_l_i thermal.d_i_m_m_l_i_same_mass thermal.d_i_m_0_l_i thermal.d_i_0_0_l_i thermal.d_i_m_m_t_i thermal.d_i_m_m_t_i_same_mass thermal.d_i_m_0_t_i thermal.d_i_0_0_t_i thermal.zero_momentum.i_m_m_i thermal.zero_momentum.i_m_m_i_same_mass thermal.zero_momentum.i_m_0_i thermal.zero_momentum.i_0_0_i thermal.zero_momentum.i_m_m_l_i thermal.zero_momentum.i_m_m_l_i_same_mass thermal.zero_momentum.i_m_0_l_i thermal.zero_momentum.i_0_0_l_i thermal.zero_momentum.i_m_m_t_i thermal.zero_momentum.i_m_m_t_i_same_mass thermal.zero_momentum.i_m_0_t_i thermal.zero_momentum.i_0_0_t_i thermal.zero_momentum.d_i_m_m_i thermal.zero_momentum.d_i_m_m_i_same_mass thermal.zero_momentum.d_i_m_0_i thermal.zero_momentum.d_i_0_0_i thermal.zero_momentum.d_i_m_m_l_i thermal.zero_momentum.d_i_m_m_l_i_same_mass thermal.zero_momentum.d_i_m_0_l_i thermal.zero_momentum.d_i_0_0_l_i thermal.zero_momentum.d_i_m_m_t_i thermal.zero_momentum.d_i_m_m_t_i_same_mass thermal.zero_momentum.d_i_m_0_t_i thermal.zero_momentum.d_i_0_0_t_i thermal.zero_matsubara.i_m_m_i thermal.zero_matsubara.i_m_m_i_same_mass thermal.zero_matsubara.i_m_0_i thermal.zero_matsubara.i_0_0_i thermal.zero_matsubara.i_m_m_l_i thermal.zero_matsubara.i_m_m_l_i_same_mass thermal.zero_matsubara.i_m_0_l_i thermal.zero_matsubara.i_0_0_l_i thermal.zero_matsubara.i_m_m_t_i thermal.zero_matsubara.i_m_m_t_i_same_mass thermal.zero_matsubara.i_m_0_t_i thermal.zero_matsubara.i_0_0_t_i thermal.zero_matsubara.d_i_m_m_i thermal.zero_matsubara.d_i_m_m_i_same_mass thermal.zero_matsubara.d_i_m_0_i thermal.zero_matsubara.d_i_0_0_i thermal.zero_matsubara.d_i_m_m_l_i thermal.zero_matsubara.d_i_m_m_l_i_same_mass thermal.zero_matsubara.d_i_m_0_l_i thermal.zero_matsubara.d_i_0_0_l_i thermal.zero_matsubara.d_i_m_m_t_i thermal.zero_matsubara.d_i_m_m_t_i_same_mass thermal.zero_matsubara.d_i_m_0_t_i thermal.zero_matsubara.d_i_0_0_t_i

/-- **C48**: `ghost::thermal::self_energy_thermal_part_landau_i` vanishes as `beta → ∞`. -/
theorem C48_ghost_thermal_self_energy {q : ℝ} (hq : 0 < q) (om : T) (p : ℝ) (m : ℝ) :
    Tendsto (fun b : ℝ => ghost.thermal.self_energy_thermal_part_landau_i q om p m b) atTop (𝓝 0) := by
  simp only [ghost.thermal.self_energy_thermal_part_landau_i, toC_real, toC_complex, toC_ofR, ofR_real, ofR_complex, map_add, map_sub, map_neg, map_mul, map_div₀, map_inv₀]
  repeat' first
    | with_reducible exact z_thermal_j_m_i hq _
    | with_reducible exact z_thermal_j_0_i hq
    | with_reducible exact z_thermal_j_m_l_i hq _
    | with_reducible exact z_thermal_j_0_l_i hq
    | with_reducible exact z_thermal_j_m_t_i hq _
    | with_reducible exact z_thermal_j_0_t_i hq
    | with_reducible exact z_thermal_i_m_m_i hq _ _ _ _
    | with_reducible exact z_thermal_i_m_m_i_same_mass hq _ _ _
    | with_reducible exact z_thermal_i_m_0_i hq _ _ _
    | with_reducible exact z_thermal_i_0_0_i hq _ _
    | with_reducible exact z_thermal_i_m_m_l_i hq _ _ _ _
    | with_reducible exact z_thermal_i_m_m_l_i_same_mass hq _ _ _
    | with_reducible exact z_thermal_i_m_0_l_i hq _ _ _
    | with_reducible exact z_thermal_i_0_0_l_i hq _ _
    | with_reducible exact z_thermal_i_m_m_t_i hq _ _ _ _
    | with_reducible exact z_thermal_i_m_m_t_i_same_mass hq _ _ _
    | with_reducible exact z_thermal_i_m_0_t_i hq _ _ _
    | with_reducible exact z_thermal_i_0_0_t_i hq _ _
    | with_reducible exact z_thermal_d_j_m_i hq _
    | with_reducible exact z_thermal_d_j_0_i hq
    | with_reducible exact z_thermal_d2_j_m_i hq _
    | with_reducible exact z_thermal_d2_j_0_i hq
    | with_reducible exact z_thermal_d_j_m_l_i hq _
    | with_reducible exact z_thermal_d_j_0_l_i hq
    | with_reducible exact z_thermal_d2_j_m_l_i hq _
    | with_reducible exact z_thermal_d2_j_0_l_i hq
    | with_reducible exact z_thermal_d_j_m_t_i hq _
    | with_reducible exact z_thermal_d_j_0_t_i hq
    | with_reducible exact z_thermal_d2_j_m_t_i hq _
    | with_reducible exact z_thermal_d2_j_0_t_i hq
    | with_reducible exact z_thermal_d_i_m_m_i hq _ _ _ _
    | with_reducible exact z_thermal_d_i_m_m_i_same_mass hq _ _ _
    | with_reducible exact z_thermal_d_i_m_0_i hq _ _ _
    | with_reducible exact z_thermal_d_i_0_0_i hq _ _
    | with_reducible exact z_thermal_d_i_m_m_l_i hq _ _ _ _
    | with_reducible exact z_thermal_d_i_m_m_l_i_same_mass hq _ _ _
    | with_reducible exact z_thermal_d_i_m_0_l_i hq _ _ _
    | with_reducible exact z_thermal_d_i_0_0_l_i hq _ _
    | with_reducible exact z_thermal_d_i_m_m_t_i hq _ _ _ _
    | with_reducible exact z_thermal_d_i_m_m_t_i_same_mass hq _ _ _
    | with_reducible exact z_thermal_d_i_m_0_t_i hq _ _ _
    | with_reducible exact z_thermal_d_i_0_0_t_i hq _ _
    | with_reducible exact z_thermal_zero_momentum_i_m_m_i hq _ _ _
    | with_reducible exact z_thermal_zero_momentum_i_m_m_i_same_mass hq _ _
    | with_reducible exact z_thermal_zero_momentum_i_m_0_i hq _ _
    | with_reducible exact z_thermal_zero_momentum_i_0_0_i hq _
    | with_reducible exact z_thermal_zero_momentum_i_m_m_l_i hq _ _ _
    | with_reducible exact z_thermal_zero_momentum_i_m_m_l_i_same_mass hq _ _
    | with_reducible exact z_thermal_zero_momentum_i_m_0_l_i hq _ _
    | with_reducible exact z_thermal_zero_momentum_i_0_0_l_i hq _
    | with_reducible exact z_thermal_zero_momentum_i_m_m_t_i hq _ _ _
    | with_reducible exact z_thermal_zero_momentum_i_m_m_t_i_same_mass hq _ _
    | with_reducible exact z_thermal_zero_momentum_i_m_0_t_i hq _ _
    | with_reducible exact z_thermal_zero_momentum_i_0_0_t_i hq _
    | with_reducible exact z_thermal_zero_momentum_d_i_m_m_i hq _ _ _
    | with_reducible exact z_thermal_zero_momentum_d_i_m_m_i_same_mass hq _ _
    | with_reducible exact z_thermal_zero_momentum_d_i_m_0_i hq _ _
    | with_reducible exact z_thermal_zero_momentum_d_i_0_0_i hq _
    | with_reducible exact z_thermal_zero_momentum_d_i_m_m_l_i hq _ _ _
    | with_reducible exact z_thermal_zero_momentum_d_i_m_m_l_i_same_mass hq _ _
    | with_reducible exact z_thermal_zero_momentum_d_i_m_0_l_i hq _ _
    | with_reducible exact z_thermal_zero_momentum_d_i_0_0_l_i hq _
    | with_reducible exact z_thermal_zero_momentum_d_i_m_m_t_i hq _ _ _
    | with_reducible exact z_thermal_zero_momentum_d_i_m_m_t_i_same_mass hq _ _
    | with_reducible exact z_thermal_zero_momentum_d_i_m_0_t_i hq _ _
    | with_reducible exact z_thermal_zero_momentum_d_i_0_0_t_i hq _
    | with_reducible exact z_thermal_zero_matsubara_i_m_m_i hq _ _ _
    | with_reducible exact z_thermal_zero_matsubara_i_m_m_i_same_mass hq _ _
    | with_reducible exact z_thermal_zero_matsubara_i_m_0_i hq _ _
    | with_reducible exact z_thermal_zero_matsubara_i_0_0_i hq _
    | with_reducible exact z_thermal_zero_matsubara_i_m_m_l_i hq _ _ _
    | with_reducible exact z_thermal_zero_matsubara_i_m_m_l_i_same_mass hq _ _
    | with_reducible exact z_thermal_zero_matsubara_i_m_0_l_i hq _ _
    | with_reducible exact z_thermal_zero_matsubara_i_0_0_l_i hq _
    | with_reducible exact z_thermal_zero_matsubara_i_m_m_t_i hq _ _ _
    | with_reducible exact z_thermal_zero_matsubara_i_m_m_t_i_same_mass hq _ _
    | with_reducible exact z_thermal_zero_matsubara_i_m_0_t_i hq _ _
    | with_reducible exact z_thermal_zero_matsubara_i_0_0_t_i hq _
    | with_reducible exact z_thermal_zero_matsubara_d_i_m_m_i hq _ _ _
    | with_reducible exact z_thermal_zero_matsubara_d_i_m_m_i_same_mass hq _ _
    | with_reducible exact z_thermal_zero_matsubara_d_i_m_0_i hq _ _
    | with_reducible exact z_thermal_zero_matsubara_d_i_0_0_i hq _
    | with_reducible exact z_thermal_zero_matsubara_d_i_m_m_l_i hq _ _ _
    | with_reducible exact z_thermal_zero_matsubara_d_i_m_m_l_i_same_mass hq _ _
    | with_reducible exact z_thermal_zero_matsubara_d_i_m_0_l_i hq _ _
    | with_reducible exact z_thermal_zero_matsubara_d_i_0_0_l_i hq _
    | with_reducible exact z_thermal_zero_matsubara_d_i_m_m_t_i hq _ _ _
    | with_reducible exact z_thermal_zero_matsubara_d_i_m_m_t_i_same_mass hq _ _
    | with_reducible exact z_thermal_zero_matsubara_d_i_m_0_t_i hq _ _
    | with_reducible exact z_thermal_zero_matsubara_d_i_0_0_t_i hq _
    | with_reducible apply z_ofReal
    | with_reducible apply zc_mul_const
    | with_reducible apply zr_mul_const
    | with_reducible apply zc_const_mul
    | with_reducible apply zr_const_mul
    | with_reducible apply zc_div_const
    | with_reducible apply zr_div_const
    | with_reducible apply zc_neg
    | with_reducible apply zr_neg
    | with_reducible apply zc_add
    | with_reducible apply zr_add
    | with_reducible apply zc_sub
    | with_reducible apply zr_sub

/-- **C48**: `ghost::thermal::zero_matsubara::self_energy_thermal_part_landau_i` vanishes as `beta → ∞`. -/
theorem C48_ghost_thermal_zero_matsubara_self_energy {q : ℝ} (hq : 0 < q) (p : ℝ) (m : ℝ) :
    Tendsto (fun b : ℝ => ghost.thermal.zero_matsubara.self_energy_thermal_part_landau_i q p m b) atTop (𝓝 0) := by
  simp only [ghost.thermal.zero_matsubara.self_energy_thermal_part_landau_i, toC_real, toC_complex, toC_ofR, ofR_real, ofR_complex, map_add, map_sub, map_neg, map_mul, map_div₀, map_inv₀]
  repeat' first
    | with_reducible exact z_thermal_j_m_i hq _
    | with_reducible exact z_thermal_j_0_i hq
    | with_reducible exact z_thermal_j_m_l_i hq _
    | with_reducible exact z_thermal_j_0_l_i hq
    | with_reducible exact z_thermal_j_m_t_i hq _
    | with_reducible exact z_thermal_j_0_t_i hq
    | with_reducible exact z_thermal_i_m_m_i hq _ _ _ _
    | with_reducible exact z_thermal_i_m_m_i_same_mass hq _ _ _
    | with_reducible exact z_thermal_i_m_0_i hq _ _ _
    | with_reducible exact z_thermal_i_0_0_i hq _ _
    | with_reducible exact z_thermal_i_m_m_l_i hq _ _ _ _
    | with_reducible exact z_thermal_i_m_m_l_i_same_mass hq _ _ _
    | with_reducible exact z_thermal_i_m_0_l_i hq _ _ _
    | with_reducible exact z_thermal_i_0_0_l_i hq _ _
    | with_reducible exact z_thermal_i_m_m_t_i hq _ _ _ _
    | with_reducible exact z_thermal_i_m_m_t_i_same_mass hq _ _ _
    | with_reducible exact z_thermal_i_m_0_t_i hq _ _ _
    | with_reducible exact z_thermal_i_0_0_t_i hq _ _
    | with_reducible exact z_thermal_d_j_m_i hq _
    | with_reducible exact z_thermal_d_j_0_i hq
    | with_reducible exact z_thermal_d2_j_m_i hq _
    | with_reducible exact z_thermal_d2_j_0_i hq
    | with_reducible exact z_thermal_d_j_m_l_i hq _
    | with_reducible exact z_thermal_d_j_0_l_i hq
    | with_reducible exact z_thermal_d2_j_m_l_i hq _
    | with_reducible exact z_thermal_d2_j_0_l_i hq
    | with_reducible exact z_thermal_d_j_m_t_i hq _
    | with_reducible exact z_thermal_d_j_0_t_i hq
    | with_reducible exact z_thermal_d2_j_m_t_i hq _
    | with_reducible exact z_thermal_d2_j_0_t_i hq
    | with_reducible exact z_thermal_d_i_m_m_i hq _ _ _ _
    | with_reducible exact z_thermal_d_i_m_m_i_same_mass hq _ _ _
    | with_reducible exact z_thermal_d_i_m_0_i hq _ _ _
    | with_reducible exact z_thermal_d_i_0_0_i hq _ _
    | with_reducible exact z_thermal_d_i_m_m_l_i hq _ _ _ _
    | with_reducible exact z_thermal_d_i_m_m_l_i_same_mass hq _ _ _
    | with_reducible exact z_thermal_d_i_m_0_l_i hq _ _ _
    | with_reducible exact z_thermal_d_i_0_0_l_i hq _ _
    | with_reducible exact z_thermal_d_i_m_m_t_i hq _ _ _ _
    | with_reducible exact z_thermal_d_i_m_m_t_i_same_mass hq _ _ _
    | with_reducible exact z_thermal_d_i_m_0_t_i hq _ _ _
    | with_reducible exact z_thermal_d_i_0_0_t_i hq _ _
    | with_reducible exact z_thermal_zero_momentum_i_m_m_i hq _ _ _
    | with_reducible exact z_thermal_zero_momentum_i_m_m_i_same_mass hq _ _
    | with_reducible exact z_thermal_zero_momentum_i_m_0_i hq _ _
    | with_reducible exact z_thermal_zero_momentum_i_0_0_i hq _
    | with_reducible exact z_thermal_zero_momentum_i_m_m_l_i hq _ _ _
    | with_reducible exact z_thermal_zero_momentum_i_m_m_l_i_same_mass hq _ _
    | with_reducible exact z_thermal_zero_momentum_i_m_0_l_i hq _ _
    | with_reducible exact z_thermal_zero_momentum_i_0_0_l_i hq _
    | with_reducible exact z_thermal_zero_momentum_i_m_m_t_i hq _ _ _
    | with_reducible exact z_thermal_zero_momentum_i_m_m_t_i_same_mass hq _ _
    | with_reducible exact z_thermal_zero_momentum_i_m_0_t_i hq _ _
    | with_reducible exact z_thermal_zero_momentum_i_0_0_t_i hq _
    | with_reducible exact z_thermal_zero_momentum_d_i_m_m_i hq _ _ _
    | with_reducible exact z_thermal_zero_momentum_d_i_m_m_i_same_mass hq _ _
    | with_reducible exact z_thermal_zero_momentum_d_i_m_0_i hq _ _
    | with_reducible exact z_thermal_zero_momentum_d_i_0_0_i hq _
    | with_reducible exact z_thermal_zero_momentum_d_i_m_m_l_i hq _ _ _
    | with_reducible exact z_thermal_zero_momentum_d_i_m_m_l_i_same_mass hq _ _
    | with_reducible exact z_thermal_zero_momentum_d_i_m_0_l_i hq _ _
    | with_reducible exact z_thermal_zero_momentum_d_i_0_0_l_i hq _
    | with_reducible exact z_thermal_zero_momentum_d_i_m_m_t_i hq _ _ _
    | with_reducible exact z_thermal_zero_momentum_d_i_m_m_t_i_same_mass hq _ _
    | with_reducible exact z_thermal_zero_momentum_d_i_m_0_t_i hq _ _
    | with_reducible exact z_thermal_zero_momentum_d_i_0_0_t_i hq _
    | with_reducible exact z_thermal_zero_matsubara_i_m_m_i hq _ _ _
    | with_reducible exact z_thermal_zero_matsubara_i_m_m_i_same_mass hq _ _
    | with_reducible exact z_thermal_zero_matsubara_i_m_0_i hq _ _
    | with_reducible exact z_thermal_zero_matsubara_i_0_0_i hq _
    | with_reducible exact z_thermal_zero_matsubara_i_m_m_l_i hq _ _ _
    | with_reducible exact z_thermal_zero_matsubara_i_m_m_l_i_same_mass hq _ _
    | with_reducible exact z_thermal_zero_matsubara_i_m_0_l_i hq _ _
    | with_reducible exact z_thermal_zero_matsubara_i_0_0_l_i hq _
    | with_reducible exact z_thermal_zero_matsubara_i_m_m_t_i hq _ _ _
    | with_reducible exact z_thermal_zero_matsubara_i_m_m_t_i_same_mass hq _ _
    | with_reducible exact z_thermal_zero_matsubara_i_m_0_t_i hq _ _
    | with_reducible exact z_thermal_zero_matsubara_i_0_0_t_i hq _
    | with_reducible exact z_thermal_zero_matsubara_d_i_m_m_i hq _ _ _
    | with_reducible exact z_thermal_zero_matsubara_d_i_m_m_i_same_mass hq _ _
    | with_reducible exact z_thermal_zero_matsubara_d_i_m_0_i hq _ _
    | with_reducible exact z_thermal_zero_matsubara_d_i_0_0_i hq _
    | with_reducible exact z_thermal_zero_matsubara_d_i_m_m_l_i hq _ _ _
    | with_reducible exact z_thermal_zero_matsubara_d_i_m_m_l_i_same_mass hq _ _
    | with_reducible exact z_thermal_zero_matsubara_d_i_m_0_l_i hq _ _
    | with_reducible exact z_thermal_zero_matsubara_d_i_0_0_l_i hq _
    | with_reducible exact z_thermal_zero_matsubara_d_i_m_m_t_i hq _ _ _
    | with_reducible exact z_thermal_zero_matsubara_d_i_m_m_t_i_same_mass hq _ _
    | with_reducible exact z_thermal_zero_matsubara_d_i_m_0_t_i hq _ _
    | with_reducible exact z_thermal_zero_matsubara_d_i_0_0_t_i hq _
    | with_reducible apply z_ofReal
    | with_reducible apply zc_mul_const
    | with_reducible apply zr_mul_const
    | with_reducible apply zc_const_mul
    | with_reducible apply zr_const_mul
    | with_reducible apply zc_div_const
    | with_reducible apply zr_div_const
    | with_reducible apply zc_neg
    | with_reducible apply zr_neg
    | with_reducible apply zc_add
    | with_reducible apply zr_add
    | with_reducible apply zc_sub
    | with_reducible apply zr_sub

/-- **C48**: `ghost::thermal::zero_momentum::self_energy_thermal_part_landau_i` vanishes as `beta → ∞`. -/
theorem C48_ghost_thermal_zero_momentum_self_energy {q : ℝ} (hq : 0 < q) (om : T) (m : ℝ) :
    Tendsto (fun b : ℝ => ghost.thermal.zero_momentum.self_energy_thermal_part_landau_i q om m b) atTop (𝓝 0) := by
  simp only [ghost.thermal.zero_momentum.self_energy_thermal_part_landau_i, toC_real, toC_complex, toC_ofR, ofR_real, ofR_complex, map_add, map_sub, map_neg, map_mul, map_div₀, map_inv₀]
  repeat' first
    | with_reducible exact z_thermal_j_m_i hq _
    | with_reducible exact z_thermal_j_0_i hq
    | with_reducible exact z_thermal_j_m_l_i hq _
    | with_reducible exact z_thermal_j_0_l_i hq
    | with_reducible exact z_thermal_j_m_t_i hq _
    | with_reducible exact z_thermal_j_0_t_i hq
    | with_reducible exact z_thermal_i_m_m_i hq _ _ _ _
    | with_reducible exact z_thermal_i_m_m_i_same_mass hq _ _ _
    | with_reducible exact z_thermal_i_m_0_i hq _ _ _
    | with_reducible exact z_thermal_i_0_0_i hq _ _
    | with_reducible exact z_thermal_i_m_m_l_i hq _ _ _ _
    | with_reducible exact z_thermal_i_m_m_l_i_same_mass hq _ _ _
    | with_reducible exact z_thermal_i_m_0_l_i hq _ _ _
    | with_reducible exact z_thermal_i_0_0_l_i hq _ _
    | with_reducible exact z_thermal_i_m_m_t_i hq _ _ _ _
    | with_reducible exact z_thermal_i_m_m_t_i_same_mass hq _ _ _
    | with_reducible exact z_thermal_i_m_0_t_i hq _ _ _
    | with_reducible exact z_thermal_i_0_0_t_i hq _ _
    | with_reducible exact z_thermal_d_j_m_i hq _
    | with_reducible exact z_thermal_d_j_0_i hq
    | with_reducible exact z_thermal_d2_j_m_i hq _
    | with_reducible exact z_thermal_d2_j_0_i hq
    | with_reducible exact z_thermal_d_j_m_l_i hq _
    | with_reducible exact z_thermal_d_j_0_l_i hq
    | with_reducible exact z_thermal_d2_j_m_l_i hq _
    | with_reducible exact z_thermal_d2_j_0_l_i hq
    | with_reducible exact z_thermal_d_j_m_t_i hq _
    | with_reducible exact z_thermal_d_j_0_t_i hq
    | with_reducible exact z_thermal_d2_j_m_t_i hq _
    | with_reducible exact z_thermal_d2_j_0_t_i hq
    | with_reducible exact z_thermal_d_i_m_m_i hq _ _ _ _
    | with_reducible exact z_thermal_d_i_m_m_i_same_mass hq _ _ _
    | with_reducible exact z_thermal_d_i_m_0_i hq _ _ _
    | with_reducible exact z_thermal_d_i_0_0_i hq _ _
    | with_reducible exact z_thermal_d_i_m_m_l_i hq _ _ _ _
    | with_reducible exact z_thermal_d_i_m_m_l_i_same_mass hq _ _ _
    | with_reducible exact z_thermal_d_i_m_0_l_i hq _ _ _
    | with_reducible exact z_thermal_d_i_0_0_l_i hq _ _
    | with_reducible exact z_thermal_d_i_m_m_t_i hq _ _ _ _
    | with_reducible exact z_thermal_d_i_m_m_t_i_same_mass hq _ _ _
    | with_reducible exact z_thermal_d_i_m_0_t_i hq _ _ _
    | with_reducible exact z_thermal_d_i_0_0_t_i hq _ _
    | with_reducible exact z_thermal_zero_momentum_i_m_m_i hq _ _ _
    | with_reducible exact z_thermal_zero_momentum_i_m_m_i_same_mass hq _ _
    | with_reducible exact z_thermal_zero_momentum_i_m_0_i hq _ _
    | with_reducible exact z_thermal_zero_momentum_i_0_0_i hq _
    | with_reducible exact z_thermal_zero_momentum_i_m_m_l_i hq _ _ _
    | with_reducible exact z_thermal_zero_momentum_i_m_m_l_i_same_mass hq _ _
    | with_reducible exact z_thermal_zero_momentum_i_m_0_l_i hq _ _
    | with_reducible exact z_thermal_zero_momentum_i_0_0_l_i hq _
    | with_reducible exact z_thermal_zero_momentum_i_m_m_t_i hq _ _ _
    | with_reducible exact z_thermal_zero_momentum_i_m_m_t_i_same_mass hq _ _
    | with_reducible exact z_thermal_zero_momentum_i_m_0_t_i hq _ _
    | with_reducible exact z_thermal_zero_momentum_i_0_0_t_i hq _
    | with_reducible exact z_thermal_zero_momentum_d_i_m_m_i hq _ _ _
    | with_reducible exact z_thermal_zero_momentum_d_i_m_m_i_same_mass hq _ _
    | with_reducible exact z_thermal_zero_momentum_d_i_m_0_i hq _ _
    | with_reducible exact z_thermal_zero_momentum_d_i_0_0_i hq _
    | with_reducible exact z_thermal_zero_momentum_d_i_m_m_l_i hq _ _ _
    | with_reducible exact z_thermal_zero_momentum_d_i_m_m_l_i_same_mass hq _ _
    | with_reducible exact z_thermal_zero_momentum_d_i_m_0_l_i hq _ _
    | with_reducible exact z_thermal_zero_momentum_d_i_0_0_l_i hq _
    | with_reducible exact z_thermal_zero_momentum_d_i_m_m_t_i hq _ _ _
    | with_reducible exact z_thermal_zero_momentum_d_i_m_m_t_i_same_mass hq _ _
    | with_reducible exact z_thermal_zero_momentum_d_i_m_0_t_i hq _ _
    | with_reducible exact z_thermal_zero_momentum_d_i_0_0_t_i hq _
    | with_reducible exact z_thermal_zero_matsubara_i_m_m_i hq _ _ _
    | with_reducible exact z_thermal_zero_matsubara_i_m_m_i_same_mass hq _ _
    | with_reducible exact z_thermal_zero_matsubara_i_m_0_i hq _ _
    | with_reducible exact z_thermal_zero_matsubara_i_0_0_i hq _
    | with_reducible exact z_thermal_zero_matsubara_i_m_m_l_i hq _ _ _
    | with_reducible exact z_thermal_zero_matsubara_i_m_m_l_i_same_mass hq _ _
    | with_reducible exact z_thermal_zero_matsubara_i_m_0_l_i hq _ _
    | with_reducible exact z_thermal_zero_matsubara_i_0_0_l_i hq _
    | with_reducible exact z_thermal_zero_matsubara_i_m_m_t_i hq _ _ _
    | with_reducible exact z_thermal_zero_matsubara_i_m_m_t_i_same_mass hq _ _
    | with_reducible exact z_thermal_zero_matsubara_i_m_0_t_i hq _ _
    | with_reducible exact z_thermal_zero_matsubara_i_0_0_t_i hq _
    | with_reducible exact z_thermal_zero_matsubara_d_i_m_m_i hq _ _ _
    | with_reducible exact z_thermal_zero_matsubara_d_i_m_m_i_same_mass hq _ _
    | with_reducible exact z_thermal_zero_matsubara_d_i_m_0_i hq _ _
    | with_reducible exact z_thermal_zero_matsubara_d_i_0_0_i hq _
    | with_reducible exact z_thermal_zero_matsubara_d_i_m_m_l_i hq _ _ _
    | with_reducible exact z_thermal_zero_matsubara_d_i_m_m_l_i_same_mass hq _ _
    | with_reducible exact z_thermal_zero_matsubara_d_i_m_0_l_i hq _ _
    | with_reducible exact z_thermal_zero_matsubara_d_i_0_0_l_i hq _
    | with_reducible exact z_thermal_zero_matsubara_d_i_m_m_t_i hq _ _ _
    | with_reducible exact z_thermal_zero_matsubara_d_i_m_m_t_i_same_mass hq _ _
    | with_reducible exact z_thermal_zero_matsubara_d_i_m_0_t_i hq _ _
    | with_reducible exact z_thermal_zero_matsubara_d_i_0_0_t_i hq _
    | with_reducible apply z_ofReal
    | with_reducible apply zc_mul_const
    | with_reducible apply zr_mul_const
    | with_reducible apply zc_const_mul
    | with_reducible apply zr_const_mul
    | with_reducible apply zc_div_const
    | with_reducible apply zr_div_const
    | with_reducible apply zc_neg
    | with_reducible apply zr_neg
    | with_reducible apply zc_add
    | with_reducible apply zr_add
    | with_reducible apply zc_sub
    | with_reducible apply zr_sub

/-- **C48**: `gluon::thermal::polarization_glue_l_thermal_part_landau_i` vanishes as `beta → ∞`. -/
theorem C48_gluon_thermal_polarization_glue_l {q : ℝ} (hq : 0 < q) (om : T1) (p : T2) (m : ℝ) :
    Tendsto (fun b : ℝ => gluon.thermal.polarization_glue_l_thermal_part_landau_i q om p m b) atTop (𝓝 0) := by
  simp only [gluon.thermal.polarization_glue_l_thermal_part_landau_i, toC_real, toC_complex, toC_ofR, ofR_real, ofR_complex, map_add, map_sub, map_neg, map_mul, map_div₀, map_inv₀]
  repeat' first
    | with_reducible exact z_thermal_j_m_i hq _
    | with_reducible exact z_thermal_j_0_i hq
    | with_reducible exact z_thermal_j_m_l_i hq _
    | with_reducible exact z_thermal_j_0_l_i hq
    | with_reducible exact z_thermal_j_m_t_i hq _
    | with_reducible exact z_thermal_j_0_t_i hq
    | with_reducible exact z_thermal_i_m_m_i hq _ _ _ _
    | with_reducible exact z_thermal_i_m_m_i_same_mass hq _ _ _
    | with_reducible exact z_thermal_i_m_0_i hq _ _ _
    | with_reducible exact z_thermal_i_0_0_i hq _ _
    | with_reducible exact z_thermal_i_m_m_l_i hq _ _ _ _
    | with_reducible exact z_thermal_i_m_m_l_i_same_mass hq _ _ _
    | with_reducible exact z_thermal_i_m_0_l_i hq _ _ _
    | with_reducible exact z_thermal_i_0_0_l_i hq _ _
    | with_reducible exact z_thermal_i_m_m_t_i hq _ _ _ _
    | with_reducible exact z_thermal_i_m_m_t_i_same_mass hq _ _ _
    | with_reducible exact z_thermal_i_m_0_t_i hq _ _ _
    | with_reducible exact z_thermal_i_0_0_t_i hq _ _
    | with_reducible exact z_thermal_d_j_m_i hq _
    | with_reducible exact z_thermal_d_j_0_i hq
    | with_reducible exact z_thermal_d2_j_m_i hq _
    | with_reducible exact z_thermal_d2_j_0_i hq
    | with_reducible exact z_thermal_d_j_m_l_i hq _
    | with_reducible exact z_thermal_d_j_0_l_i hq
    | with_reducible exact z_thermal_d2_j_m_l_i hq _
    | with_reducible exact z_thermal_d2_j_0_l_i hq
    | with_reducible exact z_thermal_d_j_m_t_i hq _
    | with_reducible exact z_thermal_d_j_0_t_i hq
    | with_reducible exact z_thermal_d2_j_m_t_i hq _
    | with_reducible exact z_thermal_d2_j_0_t_i hq
    | with_reducible exact z_thermal_d_i_m_m_i hq _ _ _ _
    | with_reducible exact z_thermal_d_i_m_m_i_same_mass hq _ _ _
    | with_reducible exact z_thermal_d_i_m_0_i hq _ _ _
    | with_reducible exact z_thermal_d_i_0_0_i hq _ _
    | with_reducible exact z_thermal_d_i_m_m_l_i hq _ _ _ _
    | with_reducible exact z_thermal_d_i_m_m_l_i_same_mass hq _ _ _
    | with_reducible exact z_thermal_d_i_m_0_l_i hq _ _ _
    | with_reducible exact z_thermal_d_i_0_0_l_i hq _ _
    | with_reducible exact z_thermal_d_i_m_m_t_i hq _ _ _ _
    | with_reducible exact z_thermal_d_i_m_m_t_i_same_mass hq _ _ _
    | with_reducible exact z_thermal_d_i_m_0_t_i hq _ _ _
    | with_reducible exact z_thermal_d_i_0_0_t_i hq _ _
    | with_reducible exact z_thermal_zero_momentum_i_m_m_i hq _ _ _
    | with_reducible exact z_thermal_zero_momentum_i_m_m_i_same_mass hq _ _
    | with_reducible exact z_thermal_zero_momentum_i_m_0_i hq _ _
    | with_reducible exact z_thermal_zero_momentum_i_0_0_i hq _
    | with_reducible exact z_thermal_zero_momentum_i_m_m_l_i hq _ _ _
    | with_reducible exact z_thermal_zero_momentum_i_m_m_l_i_same_mass hq _ _
    | with_reducible exact z_thermal_zero_momentum_i_m_0_l_i hq _ _
    | with_reducible exact z_thermal_zero_momentum_i_0_0_l_i hq _
    | with_reducible exact z_thermal_zero_momentum_i_m_m_t_i hq _ _ _
    | with_reducible exact z_thermal_zero_momentum_i_m_m_t_i_same_mass hq _ _
    | with_reducible exact z_thermal_zero_momentum_i_m_0_t_i hq _ _
    | with_reducible exact z_thermal_zero_momentum_i_0_0_t_i hq _
    | with_reducible exact z_thermal_zero_momentum_d_i_m_m_i hq _ _ _
    | with_reducible exact z_thermal_zero_momentum_d_i_m_m_i_same_mass hq _ _
    | with_reducible exact z_thermal_zero_momentum_d_i_m_0_i hq _ _
    | with_reducible exact z_thermal_zero_momentum_d_i_0_0_i hq _
    | with_reducible exact z_thermal_zero_momentum_d_i_m_m_l_i hq _ _ _
    | with_reducible exact z_thermal_zero_momentum_d_i_m_m_l_i_same_mass hq _ _
    | with_reducible exact z_thermal_zero_momentum_d_i_m_0_l_i hq _ _
    | with_reducible exact z_thermal_zero_momentum_d_i_0_0_l_i hq _
    | with_reducible exact z_thermal_zero_momentum_d_i_m_m_t_i hq _ _ _
    | with_reducible exact z_thermal_zero_momentum_d_i_m_m_t_i_same_mass hq _ _
    | with_reducible exact z_thermal_zero_momentum_d_i_m_0_t_i hq _ _
    | with_reducible exact z_thermal_zero_momentum_d_i_0_0_t_i hq _
    | with_reducible exact z_thermal_zero_matsubara_i_m_m_i hq _ _ _
    | with_reducible exact z_thermal_zero_matsubara_i_m_m_i_same_mass hq _ _
    | with_reducible exact z_thermal_zero_matsubara_i_m_0_i hq _ _
    | with_reducible exact z_thermal_zero_matsubara_i_0_0_i hq _
    | with_reducible exact z_thermal_zero_matsubara_i_m_m_l_i hq _ _ _
    | with_reducible exact z_thermal_zero_matsubara_i_m_m_l_i_same_mass hq _ _
    | with_reducible exact z_thermal_zero_matsubara_i_m_0_l_i hq _ _
    | with_reducible exact z_thermal_zero_matsubara_i_0_0_l_i hq _
    | with_reducible exact z_thermal_zero_matsubara_i_m_m_t_i hq _ _ _
    | with_reducible exact z_thermal_zero_matsubara_i_m_m_t_i_same_mass hq _ _
    | with_reducible exact z_thermal_zero_matsubara_i_m_0_t_i hq _ _
    | with_reducible exact z_thermal_zero_matsubara_i_0_0_t_i hq _
    | with_reducible exact z_thermal_zero_matsubara_d_i_m_m_i hq _ _ _
    | with_reducible exact z_thermal_zero_matsubara_d_i_m_m_i_same_mass hq _ _
    | with_reducible exact z_thermal_zero_matsubara_d_i_m_0_i hq _ _
    | with_reducible exact z_thermal_zero_matsubara_d_i_0_0_i hq _
    | with_reducible exact z_thermal_zero_matsubara_d_i_m_m_l_i hq _ _ _
    | with_reducible exact z_thermal_zero_matsubara_d_i_m_m_l_i_same_mass hq _ _
    | with_reducible exact z_thermal_zero_matsubara_d_i_m_0_l_i hq _ _
    | with_reducible exact z_thermal_zero_matsubara_d_i_0_0_l_i hq _
    | with_reducible exact z_thermal_zero_matsubara_d_i_m_m_t_i hq _ _ _
    | with_reducible exact z_thermal_zero_matsubara_d_i_m_m_t_i_same_mass hq _ _
    | with_reducible exact z_thermal_zero_matsubara_d_i_m_0_t_i hq _ _
    | with_reducible exact z_thermal_zero_matsubara_d_i_0_0_t_i hq _
    | with_reducible apply z_ofReal
    | with_reducible apply zc_mul_const
    | with_reducible apply zr_mul_const
    | with_reducible apply zc_const_mul
    | with_reducible apply zr_const_mul
    | with_reducible apply zc_div_const
    | with_reducible apply zr_div_const
    | with_reducible apply zc_neg
    | with_reducible apply zr_neg
    | with_reducible apply zc_add
    | with_reducible apply zr_add
    | with_reducible apply zc_sub
    | with_reducible apply zr_sub

/-- **C48**: `gluon::thermal::polarization_glue_t_thermal_part_landau_i` vanishes as `beta → ∞`. -/
theorem C48_gluon_thermal_polarization_glue_t {q : ℝ} (hq : 0 < q) (om : T) (p : ℝ) (m : ℝ) :
    Tendsto (fun b : ℝ => gluon.thermal.polarization_glue_t_thermal_part_landau_i q om p m b) atTop (𝓝 0) := by
  simp only [gluon.thermal.polarization_glue_t_thermal_part_landau_i, toC_real, toC_complex, toC_ofR, ofR_real, ofR_complex, map_add, map_sub, map_neg, map_mul, map_div₀, map_inv₀]
  repeat' first
    | with_reducible exact z_thermal_j_m_i hq _
    | with_reducible exact z_thermal_j_0_i hq
    | with_reducible exact z_thermal_j_m_l_i hq _
    | with_reducible exact z_thermal_j_0_l_i hq
    | with_reducible exact z_thermal_j_m_t_i hq _
    | with_reducible exact z_thermal_j_0_t_i hq
    | with_reducible exact z_thermal_i_m_m_i hq _ _ _ _
    | with_reducible exact z_thermal_i_m_m_i_same_mass hq _ _ _
    | with_reducible exact z_thermal_i_m_0_i hq _ _ _
    | with_reducible exact z_thermal_i_0_0_i hq _ _
    | with_reducible exact z_thermal_i_m_m_l_i hq _ _ _ _
    | with_reducible exact z_thermal_i_m_m_l_i_same_mass hq _ _ _
    | with_reducible exact z_thermal_i_m_0_l_i hq _ _ _
    | with_reducible exact z_thermal_i_0_0_l_i hq _ _
    | with_reducible exact z_thermal_i_m_m_t_i hq _ _ _ _
    | with_reducible exact z_thermal_i_m_m_t_i_same_mass hq _ _ _
    | with_reducible exact z_thermal_i_m_0_t_i hq _ _ _
    | with_reducible exact z_thermal_i_0_0_t_i hq _ _
    | with_reducible exact z_thermal_d_j_m_i hq _
    | with_reducible exact z_thermal_d_j_0_i hq
    | with_reducible exact z_thermal_d2_j_m_i hq _
    | with_reducible exact z_thermal_d2_j_0_i hq
    | with_reducible exact z_thermal_d_j_m_l_i hq _
    | with_reducible exact z_thermal_d_j_0_l_i hq
    | with_reducible exact z_thermal_d2_j_m_l_i hq _
    | with_reducible exact z_thermal_d2_j_0_l_i hq
    | with_reducible exact z_thermal_d_j_m_t_i hq _
    | with_reducible exact z_thermal_d_j_0_t_i hq
    | with_reducible exact z_thermal_d2_j_m_t_i hq _
    | with_reducible exact z_thermal_d2_j_0_t_i hq
    | with_reducible exact z_thermal_d_i_m_m_i hq _ _ _ _
    | with_reducible exact z_thermal_d_i_m_m_i_same_mass hq _ _ _
    | with_reducible exact z_thermal_d_i_m_0_i hq _ _ _
    | with_reducible exact z_thermal_d_i_0_0_i hq _ _
    | with_reducible exact z_thermal_d_i_m_m_l_i hq _ _ _ _
    | with_reducible exact z_thermal_d_i_m_m_l_i_same_mass hq _ _ _
    | with_reducible exact z_thermal_d_i_m_0_l_i hq _ _ _
    | with_reducible exact z_thermal_d_i_0_0_l_i hq _ _
    | with_reducible exact z_thermal_d_i_m_m_t_i hq _ _ _ _
    | with_reducible exact z_thermal_d_i_m_m_t_i_same_mass hq _ _ _
    | with_reducible exact z_thermal_d_i_m_0_t_i hq _ _ _
    | with_reducible exact z_thermal_d_i_0_0_t_i hq _ _
    | with_reducible exact z_thermal_zero_momentum_i_m_m_i hq _ _ _
    | with_reducible exact z_thermal_zero_momentum_i_m_m_i_same_mass hq _ _
    | with_reducible exact z_thermal_zero_momentum_i_m_0_i hq _ _
    | with_reducible exact z_thermal_zero_momentum_i_0_0_i hq _
    | with_reducible exact z_thermal_zero_momentum_i_m_m_l_i hq _ _ _
    | with_reducible exact z_thermal_zero_momentum_i_m_m_l_i_same_mass hq _ _
    | with_reducible exact z_thermal_zero_momentum_i_m_0_l_i hq _ _
    | with_reducible exact z_thermal_zero_momentum_i_0_0_l_i hq _
    | with_reducible exact z_thermal_zero_momentum_i_m_m_t_i hq _ _ _
    | with_reducible exact z_thermal_zero_momentum_i_m_m_t_i_same_mass hq _ _
    | with_reducible exact z_thermal_zero_momentum_i_m_0_t_i hq _ _
    | with_reducible exact z_thermal_zero_momentum_i_0_0_t_i hq _
    | with_reducible exact z_thermal_zero_momentum_d_i_m_m_i hq _ _ _
    | with_reducible exact z_thermal_zero_momentum_d_i_m_m_i_same_mass hq _ _
    | with_reducible exact z_thermal_zero_momentum_d_i_m_0_i hq _ _
    | with_reducible exact z_thermal_zero_momentum_d_i_0_0_i hq _
    | with_reducible exact z_thermal_zero_momentum_d_i_m_m_l_i hq _ _ _
    | with_reducible exact z_thermal_zero_momentum_d_i_m_m_l_i_same_mass hq _ _
    | with_reducible exact z_thermal_zero_momentum_d_i_m_0_l_i hq _ _
    | with_reducible exact z_thermal_zero_momentum_d_i_0_0_l_i hq _
    | with_reducible exact z_thermal_zero_momentum_d_i_m_m_t_i hq _ _ _
    | with_reducible exact z_thermal_zero_momentum_d_i_m_m_t_i_same_mass hq _ _
    | with_reducible exact z_thermal_zero_momentum_d_i_m_0_t_i hq _ _
    | with_reducible exact z_thermal_zero_momentum_d_i_0_0_t_i hq _
    | with_reducible exact z_thermal_zero_matsubara_i_m_m_i hq _ _ _
    | with_reducible exact z_thermal_zero_matsubara_i_m_m_i_same_mass hq _ _
    | with_reducible exact z_thermal_zero_matsubara_i_m_0_i hq _ _
    | with_reducible exact z_thermal_zero_matsubara_i_0_0_i hq _
    | with_reducible exact z_thermal_zero_matsubara_i_m_m_l_i hq _ _ _
    | with_reducible exact z_thermal_zero_matsubara_i_m_m_l_i_same_mass hq _ _
    | with_reducible exact z_thermal_zero_matsubara_i_m_0_l_i hq _ _
    | with_reducible exact z_thermal_zero_matsubara_i_0_0_l_i hq _
    | with_reducible exact z_thermal_zero_matsubara_i_m_m_t_i hq _ _ _
    | with_reducible exact z_thermal_zero_matsubara_i_m_m_t_i_same_mass hq _ _
    | with_reducible exact z_thermal_zero_matsubara_i_m_0_t_i hq _ _
    | with_reducible exact z_thermal_zero_matsubara_i_0_0_t_i hq _
    | with_reducible exact z_thermal_zero_matsubara_d_i_m_m_i hq _ _ _
    | with_reducible exact z_thermal_zero_matsubara_d_i_m_m_i_same_mass hq _ _
    | with_reducible exact z_thermal_zero_matsubara_d_i_m_0_i hq _ _
    | with_reducible exact z_thermal_zero_matsubara_d_i_0_0_i hq _
    | with_reducible exact z_thermal_zero_matsubara_d_i_m_m_l_i hq _ _ _
    | with_reducible exact z_thermal_zero_matsubara_d_i_m_m_l_i_same_mass hq _ _
    | with_reducible exact z_thermal_zero_matsubara_d_i_m_0_l_i hq _ _
    | with_reducible exact z_thermal_zero_matsubara_d_i_0_0_l_i hq _
    | with_reducible exact z_thermal_zero_matsubara_d_i_m_m_t_i hq _ _ _
    | with_reducible exact z_thermal_zero_matsubara_d_i_m_m_t_i_same_mass hq _ _
    | with_reducible exact z_thermal_zero_matsubara_d_i_m_0_t_i hq _ _
    | with_reducible exact z_thermal_zero_matsubara_d_i_0_0_t_i hq _
    | with_reducible apply z_ofReal
    | with_reducible apply zc_mul_const
    | with_reducible apply zr_mul_const
    | with_reducible apply zc_const_mul
    | with_reducible apply zr_const_mul
    | with_reducible apply zc_div_const
    | with_reducible apply zr_div_const
    | with_reducible apply zc_neg
    | with_reducible apply zr_neg
    | with_reducible apply zc_add
    | with_reducible apply zr_add
    | with_reducible apply zc_sub
    | with_reducible apply zr_sub

/-- **C48**: `gluon::thermal::polarization_quark_l_thermal_part_landau_i` tends to its zero-temperature variant, except at the Fermi surface. -/
theorem C48_gluon_thermal_polarization_quark_l {q : ℝ} (hq : 0 < q) (k : Consts ℝ) (om : T1) (p : T2) (mq : ℝ) (mu : ℝ)
    (hF : energy q mq ≠ |mu|) :
    Tendsto (fun b : ℝ => gluon.thermal.polarization_quark_l_thermal_part_landau_i k q om p mq b mu) atTop (𝓝 (gluon.thermal.polarization_quark_l_thermal_part_zero_temp_landau_i k q om p mq mu)) := by
  have hd := fermi_double_tendsto hq mq mu hF
  simp only [gluon.thermal.polarization_quark_l_thermal_part_landau_i, gluon.thermal.polarization_quark_l_thermal_part_zero_temp_landau_i, toC_real, toC_complex, toC_ofR, ofR_real, ofR_complex, map_add, map_sub, map_neg, map_mul, map_div₀, map_inv₀]
  exact (((((tendsto_ofReal hd).const_mul _).mul_const _).mul_const _).mul_const _).mul_const _

/-- **C48**: `gluon::thermal::polarization_quark_l_thermal_part_landau_i` vanishes as `beta → ∞` outside the Fermi sphere, in particular for `|mu| < |mq|`. -/
theorem C48_gluon_thermal_polarization_quark_l_outside {q : ℝ} (hq : 0 < q) (k : Consts ℝ) (om : T1) (p : T2) (mq : ℝ) (mu : ℝ)
    (hF : |mu| < energy q mq) :
    Tendsto (fun b : ℝ => gluon.thermal.polarization_quark_l_thermal_part_landau_i k q om p mq b mu) atTop (𝓝 0) := by
  have h := C48_gluon_thermal_polarization_quark_l hq k om p mq mu hF.ne'
  have hz : fermi_distribution_double_zero_temp (energy q mq) mu = 0 := by
    rw [C15_double_zero_temp_value _ _ (zt_energy_pos hq mq), if_neg (not_le.2 hF)]
  have h0 : gluon.thermal.polarization_quark_l_thermal_part_zero_temp_landau_i k q om p mq mu = 0 := by
    simp only [gluon.thermal.polarization_quark_l_thermal_part_landau_i, gluon.thermal.polarization_quark_l_thermal_part_zero_temp_landau_i, toC_real, toC_complex, toC_ofR, ofR_real, ofR_complex, map_add, map_sub, map_neg, map_mul, map_div₀, map_inv₀, hz, mul_zero, zero_mul, neg_zero, zero_div, ofR_zero, map_zero, Complex.ofReal_zero]
  rwa [h0] at h

/-- **C48**: `gluon::thermal::polarization_quark_t_thermal_part_landau_i` tends to its zero-temperature variant, except at the Fermi surface. -/
theorem C48_gluon_thermal_polarization_quark_t {q : ℝ} (hq : 0 < q) (k : Consts ℝ) (om : T) (p : ℝ) (mq : ℝ) (mu : ℝ)
    (hF : energy q mq ≠ |mu|) :
    Tendsto (fun b : ℝ => gluon.thermal.polarization_quark_t_thermal_part_landau_i k q om p mq b mu) atTop (𝓝 (gluon.thermal.polarization_quark_t_thermal_part_zero_temp_landau_i k q om p mq mu)) := by
  have hd := fermi_double_tendsto hq mq mu hF
  simp only [gluon.thermal.polarization_quark_t_thermal_part_landau_i, gluon.thermal.polarization_quark_t_thermal_part_zero_temp_landau_i, toC_real, toC_complex, toC_ofR, ofR_real, ofR_complex, map_add, map_sub, map_neg, map_mul, map_div₀, map_inv₀]
  exact (tendsto_ofReal ((hd.neg.mul_const _).div_const _)).mul_const _

/-- **C48**: `gluon::thermal::polarization_quark_t_thermal_part_landau_i` vanishes as `beta → ∞` outside the Fermi sphere, in particular for `|mu| < |mq|`. -/
theorem C48_gluon_thermal_polarization_quark_t_outside {q : ℝ} (hq : 0 < q) (k : Consts ℝ) (om : T) (p : ℝ) (mq : ℝ) (mu : ℝ)
    (hF : |mu| < energy q mq) :
    Tendsto (fun b : ℝ => gluon.thermal.polarization_quark_t_thermal_part_landau_i k q om p mq b mu) atTop (𝓝 0) := by
  have h := C48_gluon_thermal_polarization_quark_t hq k om p mq mu hF.ne'
  have hz : fermi_distribution_double_zero_temp (energy q mq) mu = 0 := by
    rw [C15_double_zero_temp_value _ _ (zt_energy_pos hq mq), if_neg (not_le.2 hF)]
  have h0 : gluon.thermal.polarization_quark_t_thermal_part_zero_temp_landau_i k q om p mq mu = 0 := by
    simp only [gluon.thermal.polarization_quark_t_thermal_part_landau_i, gluon.thermal.polarization_quark_t_thermal_part_zero_temp_landau_i, toC_real, toC_complex, toC_ofR, ofR_real, ofR_complex, map_add, map_sub, map_neg, map_mul, map_div₀, map_inv₀, hz, mul_zero, zero_mul, neg_zero, zero_div, ofR_zero, map_zero, Complex.ofReal_zero]
  rwa [h0] at h

/-- **C48**: `gluon::thermal::zero_matsubara::polarization_glue_l_thermal_part_landau_i` vanishes as `beta → ∞`. -/
theorem C48_gluon_thermal_zero_matsubara_polarization_glue_l {q : ℝ} (hq : 0 < q) (p : ℝ) (m : ℝ) :
    Tendsto (fun b : ℝ => gluon.thermal.zero_matsubara.polarization_glue_l_thermal_part_landau_i q p m b) atTop (𝓝 0) := by
  simp only [gluon.thermal.zero_matsubara.polarization_glue_l_thermal_part_landau_i, toC_real, toC_complex, toC_ofR, ofR_real, ofR_complex, map_add, map_sub, map_neg, map_mul, map_div₀, map_inv₀]
  repeat' first
    | with_reducible exact z_thermal_j_m_i hq _
    | with_reducible exact z_thermal_j_0_i hq
    | with_reducible exact z_thermal_j_m_l_i hq _
    | with_reducible exact z_thermal_j_0_l_i hq
    | with_reducible exact z_thermal_j_m_t_i hq _
    | with_reducible exact z_thermal_j_0_t_i hq
    | with_reducible exact z_thermal_i_m_m_i hq _ _ _ _
    | with_reducible exact z_thermal_i_m_m_i_same_mass hq _ _ _
    | with_reducible exact z_thermal_i_m_0_i hq _ _ _
    | with_reducible exact z_thermal_i_0_0_i hq _ _
    | with_reducible exact z_thermal_i_m_m_l_i hq _ _ _ _
    | with_reducible exact z_thermal_i_m_m_l_i_same_mass hq _ _ _
    | with_reducible exact z_thermal_i_m_0_l_i hq _ _ _
    | with_reducible exact z_thermal_i_0_0_l_i hq _ _
    | with_reducible exact z_thermal_i_m_m_t_i hq _ _ _ _
    | with_reducible exact z_thermal_i_m_m_t_i_same_mass hq _ _ _
    | with_reducible exact z_thermal_i_m_0_t_i hq _ _ _
    | with_reducible exact z_thermal_i_0_0_t_i hq _ _
    | with_reducible exact z_thermal_d_j_m_i hq _
    | with_reducible exact z_thermal_d_j_0_i hq
    | with_reducible exact z_thermal_d2_j_m_i hq _
    | with_reducible exact z_thermal_d2_j_0_i hq
    | with_reducible exact z_thermal_d_j_m_l_i hq _
    | with_reducible exact z_thermal_d_j_0_l_i hq
    | with_reducible exact z_thermal_d2_j_m_l_i hq _
    | with_reducible exact z_thermal_d2_j_0_l_i hq
    | with_reducible exact z_thermal_d_j_m_t_i hq _
    | with_reducible exact z_thermal_d_j_0_t_i hq
    | with_reducible exact z_thermal_d2_j_m_t_i hq _
    | with_reducible exact z_thermal_d2_j_0_t_i hq
    | with_reducible exact z_thermal_d_i_m_m_i hq _ _ _ _
    | with_reducible exact z_thermal_d_i_m_m_i_same_mass hq _ _ _
    | with_reducible exact z_thermal_d_i_m_0_i hq _ _ _
    | with_reducible exact z_thermal_d_i_0_0_i hq _ _
    | with_reducible exact z_thermal_d_i_m_m_l_i hq _ _ _ _
    | with_reducible exact z_thermal_d_i_m_m_l_i_same_mass hq _ _ _
    | with_reducible exact z_thermal_d_i_m_0_l_i hq _ _ _
    | with_reducible exact z_thermal_d_i_0_0_l_i hq _ _
    | with_reducible exact z_thermal_d_i_m_m_t_i hq _ _ _ _
    | with_reducible exact z_thermal_d_i_m_m_t_i_same_mass hq _ _ _
    | with_reducible exact z_thermal_d_i_m_0_t_i hq _ _ _
    | with_reducible exact z_thermal_d_i_0_0_t_i hq _ _
    | with_reducible exact z_thermal_zero_momentum_i_m_m_i hq _ _ _
    | with_reducible exact z_thermal_zero_momentum_i_m_m_i_same_mass hq _ _
    | with_reducible exact z_thermal_zero_momentum_i_m_0_i hq _ _
    | with_reducible exact z_thermal_zero_momentum_i_0_0_i hq _
    | with_reducible exact z_thermal_zero_momentum_i_m_m_l_i hq _ _ _
    | with_reducible exact z_thermal_zero_momentum_i_m_m_l_i_same_mass hq _ _
    | with_reducible exact z_thermal_zero_momentum_i_m_0_l_i hq _ _
    | with_reducible exact z_thermal_zero_momentum_i_0_0_l_i hq _
    | with_reducible exact z_thermal_zero_momentum_i_m_m_t_i hq _ _ _
    | with_reducible exact z_thermal_zero_momentum_i_m_m_t_i_same_mass hq _ _
    | with_reducible exact z_thermal_zero_momentum_i_m_0_t_i hq _ _
    | with_reducible exact z_thermal_zero_momentum_i_0_0_t_i hq _
    | with_reducible exact z_thermal_zero_momentum_d_i_m_m_i hq _ _ _
    | with_reducible exact z_thermal_zero_momentum_d_i_m_m_i_same_mass hq _ _
    | with_reducible exact z_thermal_zero_momentum_d_i_m_0_i hq _ _
    | with_reducible exact z_thermal_zero_momentum_d_i_0_0_i hq _
    | with_reducible exact z_thermal_zero_momentum_d_i_m_m_l_i hq _ _ _
    | with_reducible exact z_thermal_zero_momentum_d_i_m_m_l_i_same_mass hq _ _
    | with_reducible exact z_thermal_zero_momentum_d_i_m_0_l_i hq _ _
    | with_reducible exact z_thermal_zero_momentum_d_i_0_0_l_i hq _
    | with_reducible exact z_thermal_zero_momentum_d_i_m_m_t_i hq _ _ _
    | with_reducible exact z_thermal_zero_momentum_d_i_m_m_t_i_same_mass hq _ _
    | with_reducible exact z_thermal_zero_momentum_d_i_m_0_t_i hq _ _
    | with_reducible exact z_thermal_zero_momentum_d_i_0_0_t_i hq _
    | with_reducible exact z_thermal_zero_matsubara_i_m_m_i hq _ _ _
    | with_reducible exact z_thermal_zero_matsubara_i_m_m_i_same_mass hq _ _
    | with_reducible exact z_thermal_zero_matsubara_i_m_0_i hq _ _
    | with_reducible exact z_thermal_zero_matsubara_i_0_0_i hq _
    | with_reducible exact z_thermal_zero_matsubara_i_m_m_l_i hq _ _ _
    | with_reducible exact z_thermal_zero_matsubara_i_m_m_l_i_same_mass hq _ _
    | with_reducible exact z_thermal_zero_matsubara_i_m_0_l_i hq _ _
    | with_reducible exact z_thermal_zero_matsubara_i_0_0_l_i hq _
    | with_reducible exact z_thermal_zero_matsubara_i_m_m_t_i hq _ _ _
    | with_reducible exact z_thermal_zero_matsubara_i_m_m_t_i_same_mass hq _ _
    | with_reducible exact z_thermal_zero_matsubara_i_m_0_t_i hq _ _
    | with_reducible exact z_thermal_zero_matsubara_i_0_0_t_i hq _
    | with_reducible exact z_thermal_zero_matsubara_d_i_m_m_i hq _ _ _
    | with_reducible exact z_thermal_zero_matsubara_d_i_m_m_i_same_mass hq _ _
    | with_reducible exact z_thermal_zero_matsubara_d_i_m_0_i hq _ _
    | with_reducible exact z_thermal_zero_matsubara_d_i_0_0_i hq _
    | with_reducible exact z_thermal_zero_matsubara_d_i_m_m_l_i hq _ _ _
    | with_reducible exact z_thermal_zero_matsubara_d_i_m_m_l_i_same_mass hq _ _
    | with_reducible exact z_thermal_zero_matsubara_d_i_m_0_l_i hq _ _
    | with_reducible exact z_thermal_zero_matsubara_d_i_0_0_l_i hq _
    | with_reducible exact z_thermal_zero_matsubara_d_i_m_m_t_i hq _ _ _
    | with_reducible exact z_thermal_zero_matsubara_d_i_m_m_t_i_same_mass hq _ _
    | with_reducible exact z_thermal_zero_matsubara_d_i_m_0_t_i hq _ _
    | with_reducible exact z_thermal_zero_matsubara_d_i_0_0_t_i hq _
    | with_reducible apply z_ofReal
    | with_reducible apply zc_mul_const
    | with_reducible apply zr_mul_const
    | with_reducible apply zc_const_mul
    | with_reducible apply zr_const_mul
    | with_reducible apply zc_div_const
    | with_reducible apply zr_div_const
    | with_reducible apply zc_neg
    | with_reducible apply zr_neg
    | with_reducible apply zc_add
    | with_reducible apply zr_add
    | with_reducible apply zc_sub
    | with_reducible apply zr_sub

/-- **C48**: `gluon::thermal::zero_matsubara::polarization_glue_t_thermal_part_landau_i` vanishes as `beta → ∞`. -/
theorem C48_gluon_thermal_zero_matsubara_polarization_glue_t {q : ℝ} (hq : 0 < q) (p : ℝ) (m : ℝ) :
    Tendsto (fun b : ℝ => gluon.thermal.zero_matsubara.polarization_glue_t_thermal_part_landau_i q p m b) atTop (𝓝 0) := by
  simp only [gluon.thermal.zero_matsubara.polarization_glue_t_thermal_part_landau_i, toC_real, toC_complex, toC_ofR, ofR_real, ofR_complex, map_add, map_sub, map_neg, map_mul, map_div₀, map_inv₀]
  repeat' first
    | with_reducible exact z_thermal_j_m_i hq _
    | with_reducible exact z_thermal_j_0_i hq
    | with_reducible exact z_thermal_j_m_l_i hq _
    | with_reducible exact z_thermal_j_0_l_i hq
    | with_reducible exact z_thermal_j_m_t_i hq _
    | with_reducible exact z_thermal_j_0_t_i hq
    | with_reducible exact z_thermal_i_m_m_i hq _ _ _ _
    | with_reducible exact z_thermal_i_m_m_i_same_mass hq _ _ _
    | with_reducible exact z_thermal_i_m_0_i hq _ _ _
    | with_reducible exact z_thermal_i_0_0_i hq _ _
    | with_reducible exact z_thermal_i_m_m_l_i hq _ _ _ _
    | with_reducible exact z_thermal_i_m_m_l_i_same_mass hq _ _ _
    | with_reducible exact z_thermal_i_m_0_l_i hq _ _ _
    | with_reducible exact z_thermal_i_0_0_l_i hq _ _
    | with_reducible exact z_thermal_i_m_m_t_i hq _ _ _ _
    | with_reducible exact z_thermal_i_m_m_t_i_same_mass hq _ _ _
    | with_reducible exact z_thermal_i_m_0_t_i hq _ _ _
    | with_reducible exact z_thermal_i_0_0_t_i hq _ _
    | with_reducible exact z_thermal_d_j_m_i hq _
    | with_reducible exact z_thermal_d_j_0_i hq
    | with_reducible exact z_thermal_d2_j_m_i hq _
    | with_reducible exact z_thermal_d2_j_0_i hq
    | with_reducible exact z_thermal_d_j_m_l_i hq _
    | with_reducible exact z_thermal_d_j_0_l_i hq
    | with_reducible exact z_thermal_d2_j_m_l_i hq _
    | with_reducible exact z_thermal_d2_j_0_l_i hq
    | with_reducible exact z_thermal_d_j_m_t_i hq _
    | with_reducible exact z_thermal_d_j_0_t_i hq
    | with_reducible exact z_thermal_d2_j_m_t_i hq _
    | with_reducible exact z_thermal_d2_j_0_t_i hq
    | with_reducible exact z_thermal_d_i_m_m_i hq _ _ _ _
    | with_reducible exact z_thermal_d_i_m_m_i_same_mass hq _ _ _
    | with_reducible exact z_thermal_d_i_m_0_i hq _ _ _
    | with_reducible exact z_thermal_d_i_0_0_i hq _ _
    | with_reducible exact z_thermal_d_i_m_m_l_i hq _ _ _ _
    | with_reducible exact z_thermal_d_i_m_m_l_i_same_mass hq _ _ _
    | with_reducible exact z_thermal_d_i_m_0_l_i hq _ _ _
    | with_reducible exact z_thermal_d_i_0_0_l_i hq _ _
    | with_reducible exact z_thermal_d_i_m_m_t_i hq _ _ _ _
    | with_reducible exact z_thermal_d_i_m_m_t_i_same_mass hq _ _ _
    | with_reducible exact z_thermal_d_i_m_0_t_i hq _ _ _
    | with_reducible exact z_thermal_d_i_0_0_t_i hq _ _
    | with_reducible exact z_thermal_zero_momentum_i_m_m_i hq _ _ _
    | with_reducible exact z_thermal_zero_momentum_i_m_m_i_same_mass hq _ _
    | with_reducible exact z_thermal_zero_momentum_i_m_0_i hq _ _
    | with_reducible exact z_thermal_zero_momentum_i_0_0_i hq _
    | with_reducible exact z_thermal_zero_momentum_i_m_m_l_i hq _ _ _
    | with_reducible exact z_thermal_zero_momentum_i_m_m_l_i_same_mass hq _ _
    | with_reducible exact z_thermal_zero_momentum_i_m_0_l_i hq _ _
    | with_reducible exact z_thermal_zero_momentum_i_0_0_l_i hq _
    | with_reducible exact z_thermal_zero_momentum_i_m_m_t_i hq _ _ _
    | with_reducible exact z_thermal_zero_momentum_i_m_m_t_i_same_mass hq _ _
    | with_reducible exact z_thermal_zero_momentum_i_m_0_t_i hq _ _
    | with_reducible exact z_thermal_zero_momentum_i_0_0_t_i hq _
    | with_reducible exact z_thermal_zero_momentum_d_i_m_m_i hq _ _ _
    | with_reducible exact z_thermal_zero_momentum_d_i_m_m_i_same_mass hq _ _
    | with_reducible exact z_thermal_zero_momentum_d_i_m_0_i hq _ _
    | with_reducible exact z_thermal_zero_momentum_d_i_0_0_i hq _
    | with_reducible exact z_thermal_zero_momentum_d_i_m_m_l_i hq _ _ _
    | with_reducible exact z_thermal_zero_momentum_d_i_m_m_l_i_same_mass hq _ _
    | with_reducible exact z_thermal_zero_momentum_d_i_m_0_l_i hq _ _
    | with_reducible exact z_thermal_zero_momentum_d_i_0_0_l_i hq _
    | with_reducible exact z_thermal_zero_momentum_d_i_m_m_t_i hq _ _ _
    | with_reducible exact z_thermal_zero_momentum_d_i_m_m_t_i_same_mass hq _ _
    | with_reducible exact z_thermal_zero_momentum_d_i_m_0_t_i hq _ _
    | with_reducible exact z_thermal_zero_momentum_d_i_0_0_t_i hq _
    | with_reducible exact z_thermal_zero_matsubara_i_m_m_i hq _ _ _
    | with_reducible exact z_thermal_zero_matsubara_i_m_m_i_same_mass hq _ _
    | with_reducible exact z_thermal_zero_matsubara_i_m_0_i hq _ _
    | with_reducible exact z_thermal_zero_matsubara_i_0_0_i hq _
    | with_reducible exact z_thermal_zero_matsubara_i_m_m_l_i hq _ _ _
    | with_reducible exact z_thermal_zero_matsubara_i_m_m_l_i_same_mass hq _ _
    | with_reducible exact z_thermal_zero_matsubara_i_m_0_l_i hq _ _
    | with_reducible exact z_thermal_zero_matsubara_i_0_0_l_i hq _
    | with_reducible exact z_thermal_zero_matsubara_i_m_m_t_i hq _ _ _
    | with_reducible exact z_thermal_zero_matsubara_i_m_m_t_i_same_mass hq _ _
    | with_reducible exact z_thermal_zero_matsubara_i_m_0_t_i hq _ _
    | with_reducible exact z_thermal_zero_matsubara_i_0_0_t_i hq _
    | with_reducible exact z_thermal_zero_matsubara_d_i_m_m_i hq _ _ _
    | with_reducible exact z_thermal_zero_matsubara_d_i_m_m_i_same_mass hq _ _
    | with_reducible exact z_thermal_zero_matsubara_d_i_m_0_i hq _ _
    | with_reducible exact z_thermal_zero_matsubara_d_i_0_0_i hq _
    | with_reducible exact z_thermal_zero_matsubara_d_i_m_m_l_i hq _ _ _
    | with_reducible exact z_thermal_zero_matsubara_d_i_m_m_l_i_same_mass hq _ _
    | with_reducible exact z_thermal_zero_matsubara_d_i_m_0_l_i hq _ _
    | with_reducible exact z_thermal_zero_matsubara_d_i_0_0_l_i hq _
    | with_reducible exact z_thermal_zero_matsubara_d_i_m_m_t_i hq _ _ _
    | with_reducible exact z_thermal_zero_matsubara_d_i_m_m_t_i_same_mass hq _ _
    | with_reducible exact z_thermal_zero_matsubara_d_i_m_0_t_i hq _ _
    | with_reducible exact z_thermal_zero_matsubara_d_i_0_0_t_i hq _
    | with_reducible apply z_ofReal
    | with_reducible apply zc_mul_const
    | with_reducible apply zr_mul_const
    | with_reducible apply zc_const_mul
    | with_reducible apply zr_const_mul
    | with_reducible apply zc_div_const
    | with_reducible apply zr_div_const
    | with_reducible apply zc_neg
    | with_reducible apply zr_neg
    | with_reducible apply zc_add
    | with_reducible apply zr_add
    | with_reducible apply zc_sub
    | with_reducible apply zr_sub

/-- **C48**: `gluon::thermal::zero_matsubara::polarization_quark_l_thermal_part_landau_i` tends to its zero-temperature variant, except at the Fermi surface. -/
theorem C48_gluon_thermal_zero_matsubara_polarization_quark_l {q : ℝ} (hq : 0 < q) (k : Consts ℝ) (p : ℝ) (mq : ℝ) (mu : ℝ)
    (hF : energy q mq ≠ |mu|) :
    Tendsto (fun b : ℝ => gluon.thermal.zero_matsubara.polarization_quark_l_thermal_part_landau_i k q p mq b mu) atTop (𝓝 (gluon.thermal.zero_matsubara.polarization_quark_l_thermal_part_zero_temp_landau_i k q p mq mu)) := by
  have hd := fermi_double_tendsto hq mq mu hF
  simp only [gluon.thermal.zero_matsubara.polarization_quark_l_thermal_part_landau_i, gluon.thermal.zero_matsubara.polarization_quark_l_thermal_part_zero_temp_landau_i, toC_real, toC_complex, toC_ofR, ofR_real, ofR_complex, map_add, map_sub, map_neg, map_mul, map_div₀, map_inv₀]
  exact (((hd.neg.mul_const _).mul_const _).div_const _).mul_const _

/-- **C48**: `gluon::thermal::zero_matsubara::polarization_quark_l_thermal_part_landau_i` vanishes as `beta → ∞` outside the Fermi sphere, in particular for `|mu| < |mq|`. -/
theorem C48_gluon_thermal_zero_matsubara_polarization_quark_l_outside {q : ℝ} (hq : 0 < q) (k : Consts ℝ) (p : ℝ) (mq : ℝ) (mu : ℝ)
    (hF : |mu| < energy q mq) :
    Tendsto (fun b : ℝ => gluon.thermal.zero_matsubara.polarization_quark_l_thermal_part_landau_i k q p mq b mu) atTop (𝓝 0) := by
  have h := C48_gluon_thermal_zero_matsubara_polarization_quark_l hq k p mq mu hF.ne'
  have hz : fermi_distribution_double_zero_temp (energy q mq) mu = 0 := by
    rw [C15_double_zero_temp_value _ _ (zt_energy_pos hq mq), if_neg (not_le.2 hF)]
  have h0 : gluon.thermal.zero_matsubara.polarization_quark_l_thermal_part_zero_temp_landau_i k q p mq mu = 0 := by
    simp only [gluon.thermal.zero_matsubara.polarization_quark_l_thermal_part_landau_i, gluon.thermal.zero_matsubara.polarization_quark_l_thermal_part_zero_temp_landau_i, toC_real, toC_complex, toC_ofR, ofR_real, ofR_complex, map_add, map_sub, map_neg, map_mul, map_div₀, map_inv₀, hz, mul_zero, zero_mul, neg_zero, zero_div, ofR_zero, map_zero, Complex.ofReal_zero]
  rwa [h0] at h

/-- **C48**: `gluon::thermal::zero_matsubara::polarization_quark_t_thermal_part_landau_i` tends to its zero-temperature variant, except at the Fermi surface. -/
theorem C48_gluon_thermal_zero_matsubara_polarization_quark_t {q : ℝ} (hq : 0 < q) (k : Consts ℝ) (p : ℝ) (mq : ℝ) (mu : ℝ)
    (hF : energy q mq ≠ |mu|) :
    Tendsto (fun b : ℝ => gluon.thermal.zero_matsubara.polarization_quark_t_thermal_part_landau_i k q p mq b mu) atTop (𝓝 (gluon.thermal.zero_matsubara.polarization_quark_t_thermal_part_zero_temp_landau_i k q p mq mu)) := by
  have hd := fermi_double_tendsto hq mq mu hF
  simp only [gluon.thermal.zero_matsubara.polarization_quark_t_thermal_part_landau_i, gluon.thermal.zero_matsubara.polarization_quark_t_thermal_part_zero_temp_landau_i, toC_real, toC_complex, toC_ofR, ofR_real, ofR_complex, map_add, map_sub, map_neg, map_mul, map_div₀, map_inv₀]
  exact ((hd.neg.mul_const _).div_const _).mul_const _

/-- **C48**: `gluon::thermal::zero_matsubara::polarization_quark_t_thermal_part_landau_i` vanishes as `beta → ∞` outside the Fermi sphere, in particular for `|mu| < |mq|`. -/
theorem C48_gluon_thermal_zero_matsubara_polarization_quark_t_outside {q : ℝ} (hq : 0 < q) (k : Consts ℝ) (p : ℝ) (mq : ℝ) (mu : ℝ)
    (hF : |mu| < energy q mq) :
    Tendsto (fun b : ℝ => gluon.thermal.zero_matsubara.polarization_quark_t_thermal_part_landau_i k q p mq b mu) atTop (𝓝 0) := by
  have h := C48_gluon_thermal_zero_matsubara_polarization_quark_t hq k p mq mu hF.ne'
  have hz : fermi_distribution_double_zero_temp (energy q mq) mu = 0 := by
    rw [C15_double_zero_temp_value _ _ (zt_energy_pos hq mq), if_neg (not_le.2 hF)]
  have h0 : gluon.thermal.zero_matsubara.polarization_quark_t_thermal_part_zero_temp_landau_i k q p mq mu = 0 := by
    simp only [gluon.thermal.zero_matsubara.polarization_quark_t_thermal_part_landau_i, gluon.thermal.zero_matsubara.polarization_quark_t_thermal_part_zero_temp_landau_i, toC_real, toC_complex, toC_ofR, ofR_real, ofR_complex, map_add, map_sub, map_neg, map_mul, map_div₀, map_inv₀, hz, mul_zero, zero_mul, neg_zero, zero_div, ofR_zero, map_zero, Complex.ofReal_zero]
  rwa [h0] at h

/-- **C48**: `gluon::thermal::zero_momentum::polarization_glue_l_thermal_part_landau_i` vanishes as `beta → ∞`. -/
theorem C48_gluon_thermal_zero_momentum_polarization_glue_l {q : ℝ} (hq : 0 < q) (om : T) (m : ℝ) :
    Tendsto (fun b : ℝ => gluon.thermal.zero_momentum.polarization_glue_l_thermal_part_landau_i q om m b) atTop (𝓝 0) := by
  simp only [gluon.thermal.zero_momentum.polarization_glue_l_thermal_part_landau_i, toC_real, toC_complex, toC_ofR, ofR_real, ofR_complex, map_add, map_sub, map_neg, map_mul, map_div₀, map_inv₀]
  repeat' first
    | with_reducible exact z_thermal_j_m_i hq _
    | with_reducible exact z_thermal_j_0_i hq
    | with_reducible exact z_thermal_j_m_l_i hq _
    | with_reducible exact z_thermal_j_0_l_i hq
    | with_reducible exact z_thermal_j_m_t_i hq _
    | with_reducible exact z_thermal_j_0_t_i hq
    | with_reducible exact z_thermal_i_m_m_i hq _ _ _ _
    | with_reducible exact z_thermal_i_m_m_i_same_mass hq _ _ _
    | with_reducible exact z_thermal_i_m_0_i hq _ _ _
    | with_reducible exact z_thermal_i_0_0_i hq _ _
    | with_reducible exact z_thermal_i_m_m_l_i hq _ _ _ _
    | with_reducible exact z_thermal_i_m_m_l_i_same_mass hq _ _ _
    | with_reducible exact z_thermal_i_m_0_l_i hq _ _ _
    | with_reducible exact z_thermal_i_0_0_l_i hq _ _
    | with_reducible exact z_thermal_i_m_m_t_i hq _ _ _ _
    | with_reducible exact z_thermal_i_m_m_t_i_same_mass hq _ _ _
    | with_reducible exact z_thermal_i_m_0_t_i hq _ _ _
    | with_reducible exact z_thermal_i_0_0_t_i hq _ _
    | with_reducible exact z_thermal_d_j_m_i hq _
    | with_reducible exact z_thermal_d_j_0_i hq
    | with_reducible exact z_thermal_d2_j_m_i hq _
    | with_reducible exact z_thermal_d2_j_0_i hq
    | with_reducible exact z_thermal_d_j_m_l_i hq _
    | with_reducible exact z_thermal_d_j_0_l_i hq
    | with_reducible exact z_thermal_d2_j_m_l_i hq _
    | with_reducible exact z_thermal_d2_j_0_l_i hq
    | with_reducible exact z_thermal_d_j_m_t_i hq _
    | with_reducible exact z_thermal_d_j_0_t_i hq
    | with_reducible exact z_thermal_d2_j_m_t_i hq _
    | with_reducible exact z_thermal_d2_j_0_t_i hq
    | with_reducible exact z_thermal_d_i_m_m_i hq _ _ _ _
    | with_reducible exact z_thermal_d_i_m_m_i_same_mass hq _ _ _
    | with_reducible exact z_thermal_d_i_m_0_i hq _ _ _
    | with_reducible exact z_thermal_d_i_0_0_i hq _ _
    | with_reducible exact z_thermal_d_i_m_m_l_i hq _ _ _ _
    | with_reducible exact z_thermal_d_i_m_m_l_i_same_mass hq _ _ _
    | with_reducible exact z_thermal_d_i_m_0_l_i hq _ _ _
    | with_reducible exact z_thermal_d_i_0_0_l_i hq _ _
    | with_reducible exact z_thermal_d_i_m_m_t_i hq _ _ _ _
    | with_reducible exact z_thermal_d_i_m_m_t_i_same_mass hq _ _ _
    | with_reducible exact z_thermal_d_i_m_0_t_i hq _ _ _
    | with_reducible exact z_thermal_d_i_0_0_t_i hq _ _
    | with_reducible exact z_thermal_zero_momentum_i_m_m_i hq _ _ _
    | with_reducible exact z_thermal_zero_momentum_i_m_m_i_same_mass hq _ _
    | with_reducible exact z_thermal_zero_momentum_i_m_0_i hq _ _
    | with_reducible exact z_thermal_zero_momentum_i_0_0_i hq _
    | with_reducible exact z_thermal_zero_momentum_i_m_m_l_i hq _ _ _
    | with_reducible exact z_thermal_zero_momentum_i_m_m_l_i_same_mass hq _ _
    | with_reducible exact z_thermal_zero_momentum_i_m_0_l_i hq _ _
    | with_reducible exact z_thermal_zero_momentum_i_0_0_l_i hq _
    | with_reducible exact z_thermal_zero_momentum_i_m_m_t_i hq _ _ _
    | with_reducible exact z_thermal_zero_momentum_i_m_m_t_i_same_mass hq _ _
    | with_reducible exact z_thermal_zero_momentum_i_m_0_t_i hq _ _
    | with_reducible exact z_thermal_zero_momentum_i_0_0_t_i hq _
    | with_reducible exact z_thermal_zero_momentum_d_i_m_m_i hq _ _ _
    | with_reducible exact z_thermal_zero_momentum_d_i_m_m_i_same_mass hq _ _
    | with_reducible exact z_thermal_zero_momentum_d_i_m_0_i hq _ _
    | with_reducible exact z_thermal_zero_momentum_d_i_0_0_i hq _
    | with_reducible exact z_thermal_zero_momentum_d_i_m_m_l_i hq _ _ _
    | with_reducible exact z_thermal_zero_momentum_d_i_m_m_l_i_same_mass hq _ _
    | with_reducible exact z_thermal_zero_momentum_d_i_m_0_l_i hq _ _
    | with_reducible exact z_thermal_zero_momentum_d_i_0_0_l_i hq _
    | with_reducible exact z_thermal_zero_momentum_d_i_m_m_t_i hq _ _ _
    | with_reducible exact z_thermal_zero_momentum_d_i_m_m_t_i_same_mass hq _ _
    | with_reducible exact z_thermal_zero_momentum_d_i_m_0_t_i hq _ _
    | with_reducible exact z_thermal_zero_momentum_d_i_0_0_t_i hq _
    | with_reducible exact z_thermal_zero_matsubara_i_m_m_i hq _ _ _
    | with_reducible exact z_thermal_zero_matsubara_i_m_m_i_same_mass hq _ _
    | with_reducible exact z_thermal_zero_matsubara_i_m_0_i hq _ _
    | with_reducible exact z_thermal_zero_matsubara_i_0_0_i hq _
    | with_reducible exact z_thermal_zero_matsubara_i_m_m_l_i hq _ _ _
    | with_reducible exact z_thermal_zero_matsubara_i_m_m_l_i_same_mass hq _ _
    | with_reducible exact z_thermal_zero_matsubara_i_m_0_l_i hq _ _
    | with_reducible exact z_thermal_zero_matsubara_i_0_0_l_i hq _
    | with_reducible exact z_thermal_zero_matsubara_i_m_m_t_i hq _ _ _
    | with_reducible exact z_thermal_zero_matsubara_i_m_m_t_i_same_mass hq _ _
    | with_reducible exact z_thermal_zero_matsubara_i_m_0_t_i hq _ _
    | with_reducible exact z_thermal_zero_matsubara_i_0_0_t_i hq _
    | with_reducible exact z_thermal_zero_matsubara_d_i_m_m_i hq _ _ _
    | with_reducible exact z_thermal_zero_matsubara_d_i_m_m_i_same_mass hq _ _
    | with_reducible exact z_thermal_zero_matsubara_d_i_m_0_i hq _ _
    | with_reducible exact z_thermal_zero_matsubara_d_i_0_0_i hq _
    | with_reducible exact z_thermal_zero_matsubara_d_i_m_m_l_i hq _ _ _
    | with_reducible exact z_thermal_zero_matsubara_d_i_m_m_l_i_same_mass hq _ _
    | with_reducible exact z_thermal_zero_matsubara_d_i_m_0_l_i hq _ _
    | with_reducible exact z_thermal_zero_matsubara_d_i_0_0_l_i hq _
    | with_reducible exact z_thermal_zero_matsubara_d_i_m_m_t_i hq _ _ _
    | with_reducible exact z_thermal_zero_matsubara_d_i_m_m_t_i_same_mass hq _ _
    | with_reducible exact z_thermal_zero_matsubara_d_i_m_0_t_i hq _ _
    | with_reducible exact z_thermal_zero_matsubara_d_i_0_0_t_i hq _
    | with_reducible apply z_ofReal
    | with_reducible apply zc_mul_const
    | with_reducible apply zr_mul_const
    | with_reducible apply zc_const_mul
    | with_reducible apply zr_const_mul
    | with_reducible apply zc_div_const
    | with_reducible apply zr_div_const
    | with_reducible apply zc_neg
    | with_reducible apply zr_neg
    | with_reducible apply zc_add
    | with_reducible apply zr_add
    | with_reducible apply zc_sub
    | with_reducible apply zr_sub

/-- **C48**: `gluon::thermal::zero_momentum::polarization_glue_t_thermal_part_landau_i` vanishes as `beta → ∞`. -/
theorem C48_gluon_thermal_zero_momentum_polarization_glue_t {q : ℝ} (hq : 0 < q) (om : T) (m : ℝ) :
    Tendsto (fun b : ℝ => gluon.thermal.zero_momentum.polarization_glue_t_thermal_part_landau_i q om m b) atTop (𝓝 0) := by
  simp only [gluon.thermal.zero_momentum.polarization_glue_t_thermal_part_landau_i, gluon.thermal.zero_momentum.polarization_glue_l_thermal_part_landau_i, toC_real, toC_complex, toC_ofR, ofR_real, ofR_complex, map_add, map_sub, map_neg, map_mul, map_div₀, map_inv₀]
  repeat' first
    | with_reducible exact z_thermal_j_m_i hq _
    | with_reducible exact z_thermal_j_0_i hq
    | with_reducible exact z_thermal_j_m_l_i hq _
    | with_reducible exact z_thermal_j_0_l_i hq
    | with_reducible exact z_thermal_j_m_t_i hq _
    | with_reducible exact z_thermal_j_0_t_i hq
    | with_reducible exact z_thermal_i_m_m_i hq _ _ _ _
    | with_reducible exact z_thermal_i_m_m_i_same_mass hq _ _ _
    | with_reducible exact z_thermal_i_m_0_i hq _ _ _
    | with_reducible exact z_thermal_i_0_0_i hq _ _
    | with_reducible exact z_thermal_i_m_m_l_i hq _ _ _ _
    | with_reducible exact z_thermal_i_m_m_l_i_same_mass hq _ _ _
    | with_reducible exact z_thermal_i_m_0_l_i hq _ _ _
    | with_reducible exact z_thermal_i_0_0_l_i hq _ _
    | with_reducible exact z_thermal_i_m_m_t_i hq _ _ _ _
    | with_reducible exact z_thermal_i_m_m_t_i_same_mass hq _ _ _
    | with_reducible exact z_thermal_i_m_0_t_i hq _ _ _
    | with_reducible exact z_thermal_i_0_0_t_i hq _ _
    | with_reducible exact z_thermal_d_j_m_i hq _
    | with_reducible exact z_thermal_d_j_0_i hq
    | with_reducible exact z_thermal_d2_j_m_i hq _
    | with_reducible exact z_thermal_d2_j_0_i hq
    | with_reducible exact z_thermal_d_j_m_l_i hq _
    | with_reducible exact z_thermal_d_j_0_l_i hq
    | with_reducible exact z_thermal_d2_j_m_l_i hq _
    | with_reducible exact z_thermal_d2_j_0_l_i hq
    | with_reducible exact z_thermal_d_j_m_t_i hq _
    | with_reducible exact z_thermal_d_j_0_t_i hq
    | with_reducible exact z_thermal_d2_j_m_t_i hq _
    | with_reducible exact z_thermal_d2_j_0_t_i hq
    | with_reducible exact z_thermal_d_i_m_m_i hq _ _ _ _
    | with_reducible exact z_thermal_d_i_m_m_i_same_mass hq _ _ _
    | with_reducible exact z_thermal_d_i_m_0_i hq _ _ _
    | with_reducible exact z_thermal_d_i_0_0_i hq _ _
    | with_reducible exact z_thermal_d_i_m_m_l_i hq _ _ _ _
    | with_reducible exact z_thermal_d_i_m_m_l_i_same_mass hq _ _ _
    | with_reducible exact z_thermal_d_i_m_0_l_i hq _ _ _
    | with_reducible exact z_thermal_d_i_0_0_l_i hq _ _
    | with_reducible exact z_thermal_d_i_m_m_t_i hq _ _ _ _
    | with_reducible exact z_thermal_d_i_m_m_t_i_same_mass hq _ _ _
    | with_reducible exact z_thermal_d_i_m_0_t_i hq _ _ _
    | with_reducible exact z_thermal_d_i_0_0_t_i hq _ _
    | with_reducible exact z_thermal_zero_momentum_i_m_m_i hq _ _ _
    | with_reducible exact z_thermal_zero_momentum_i_m_m_i_same_mass hq _ _
    | with_reducible exact z_thermal_zero_momentum_i_m_0_i hq _ _
    | with_reducible exact z_thermal_zero_momentum_i_0_0_i hq _
    | with_reducible exact z_thermal_zero_momentum_i_m_m_l_i hq _ _ _
    | with_reducible exact z_thermal_zero_momentum_i_m_m_l_i_same_mass hq _ _
    | with_reducible exact z_thermal_zero_momentum_i_m_0_l_i hq _ _
    | with_reducible exact z_thermal_zero_momentum_i_0_0_l_i hq _
    | with_reducible exact z_thermal_zero_momentum_i_m_m_t_i hq _ _ _
    | with_reducible exact z_thermal_zero_momentum_i_m_m_t_i_same_mass hq _ _
    | with_reducible exact z_thermal_zero_momentum_i_m_0_t_i hq _ _
    | with_reducible exact z_thermal_zero_momentum_i_0_0_t_i hq _
    | with_reducible exact z_thermal_zero_momentum_d_i_m_m_i hq _ _ _
    | with_reducible exact z_thermal_zero_momentum_d_i_m_m_i_same_mass hq _ _
    | with_reducible exact z_thermal_zero_momentum_d_i_m_0_i hq _ _
    | with_reducible exact z_thermal_zero_momentum_d_i_0_0_i hq _
    | with_reducible exact z_thermal_zero_momentum_d_i_m_m_l_i hq _ _ _
    | with_reducible exact z_thermal_zero_momentum_d_i_m_m_l_i_same_mass hq _ _
    | with_reducible exact z_thermal_zero_momentum_d_i_m_0_l_i hq _ _
    | with_reducible exact z_thermal_zero_momentum_d_i_0_0_l_i hq _
    | with_reducible exact z_thermal_zero_momentum_d_i_m_m_t_i hq _ _ _
    | with_reducible exact z_thermal_zero_momentum_d_i_m_m_t_i_same_mass hq _ _
    | with_reducible exact z_thermal_zero_momentum_d_i_m_0_t_i hq _ _
    | with_reducible exact z_thermal_zero_momentum_d_i_0_0_t_i hq _
    | with_reducible exact z_thermal_zero_matsubara_i_m_m_i hq _ _ _
    | with_reducible exact z_thermal_zero_matsubara_i_m_m_i_same_mass hq _ _
    | with_reducible exact z_thermal_zero_matsubara_i_m_0_i hq _ _
    | with_reducible exact z_thermal_zero_matsubara_i_0_0_i hq _
    | with_reducible exact z_thermal_zero_matsubara_i_m_m_l_i hq _ _ _
    | with_reducible exact z_thermal_zero_matsubara_i_m_m_l_i_same_mass hq _ _
    | with_reducible exact z_thermal_zero_matsubara_i_m_0_l_i hq _ _
    | with_reducible exact z_thermal_zero_matsubara_i_0_0_l_i hq _
    | with_reducible exact z_thermal_zero_matsubara_i_m_m_t_i hq _ _ _
    | with_reducible exact z_thermal_zero_matsubara_i_m_m_t_i_same_mass hq _ _
    | with_reducible exact z_thermal_zero_matsubara_i_m_0_t_i hq _ _
    | with_reducible exact z_thermal_zero_matsubara_i_0_0_t_i hq _
    | with_reducible exact z_thermal_zero_matsubara_d_i_m_m_i hq _ _ _
    | with_reducible exact z_thermal_zero_matsubara_d_i_m_m_i_same_mass hq _ _
    | with_reducible exact z_thermal_zero_matsubara_d_i_m_0_i hq _ _
    | with_reducible exact z_thermal_zero_matsubara_d_i_0_0_i hq _
    | with_reducible exact z_thermal_zero_matsubara_d_i_m_m_l_i hq _ _ _
    | with_reducible exact z_thermal_zero_matsubara_d_i_m_m_l_i_same_mass hq _ _
    | with_reducible exact z_thermal_zero_matsubara_d_i_m_0_l_i hq _ _
    | with_reducible exact z_thermal_zero_matsubara_d_i_0_0_l_i hq _
    | with_reducible exact z_thermal_zero_matsubara_d_i_m_m_t_i hq _ _ _
    | with_reducible exact z_thermal_zero_matsubara_d_i_m_m_t_i_same_mass hq _ _
    | with_reducible exact z_thermal_zero_matsubara_d_i_m_0_t_i hq _ _
    | with_reducible exact z_thermal_zero_matsubara_d_i_0_0_t_i hq _
    | with_reducible apply z_ofReal
    | with_reducible apply zc_mul_const
    | with_reducible apply zr_mul_const
    | with_reducible apply zc_const_mul
    | with_reducible apply zr_const_mul
    | with_reducible apply zc_div_const
    | with_reducible apply zr_div_const
    | with_reducible apply zc_neg
    | with_reducible apply zr_neg
    | with_reducible apply zc_add
    | with_reducible apply zr_add
    | with_reducible apply zc_sub
    | with_reducible apply zr_sub

/-- **C48**: `gluon::thermal::zero_momentum::polarization_quark_l_thermal_part_landau_i` tends to its zero-temperature variant, except at the Fermi surface. -/
theorem C48_gluon_thermal_zero_momentum_polarization_quark_l {q : ℝ} (hq : 0 < q) (k : Consts ℝ) (om : T) (mq : ℝ) (mu : ℝ)
    (hF : energy q mq ≠ |mu|) :
    Tendsto (fun b : ℝ => toC (gluon.thermal.zero_momentum.polarization_quark_l_thermal_part_landau_i k q om mq b mu)) atTop (𝓝 (toC (gluon.thermal.zero_momentum.polarization_quark_l_thermal_part_zero_temp_landau_i k q om mq mu))) := by
  have hd := fermi_double_tendsto hq mq mu hF
  simp only [gluon.thermal.zero_momentum.polarization_quark_l_thermal_part_landau_i, gluon.thermal.zero_momentum.polarization_quark_l_thermal_part_zero_temp_landau_i, toC_real, toC_complex, toC_ofR, ofR_real, ofR_complex, map_add, map_sub, map_neg, map_mul, map_div₀, map_inv₀]
  exact (((tendsto_ofReal hd).const_mul _).mul_const _).mul_const _

/-- **C48**: `gluon::thermal::zero_momentum::polarization_quark_l_thermal_part_landau_i` vanishes as `beta → ∞` outside the Fermi sphere, in particular for `|mu| < |mq|`. -/
theorem C48_gluon_thermal_zero_momentum_polarization_quark_l_outside {q : ℝ} (hq : 0 < q) (k : Consts ℝ) (om : T) (mq : ℝ) (mu : ℝ)
    (hF : |mu| < energy q mq) :
    Tendsto (fun b : ℝ => toC (gluon.thermal.zero_momentum.polarization_quark_l_thermal_part_landau_i k q om mq b mu)) atTop (𝓝 0) := by
  have h := C48_gluon_thermal_zero_momentum_polarization_quark_l hq k om mq mu hF.ne'
  have hz : fermi_distribution_double_zero_temp (energy q mq) mu = 0 := by
    rw [C15_double_zero_temp_value _ _ (zt_energy_pos hq mq), if_neg (not_le.2 hF)]
  have h0 : toC (gluon.thermal.zero_momentum.polarization_quark_l_thermal_part_zero_temp_landau_i k q om mq mu) = 0 := by
    simp only [gluon.thermal.zero_momentum.polarization_quark_l_thermal_part_landau_i, gluon.thermal.zero_momentum.polarization_quark_l_thermal_part_zero_temp_landau_i, toC_real, toC_complex, toC_ofR, ofR_real, ofR_complex, map_add, map_sub, map_neg, map_mul, map_div₀, map_inv₀, hz, mul_zero, zero_mul, neg_zero, zero_div, ofR_zero, map_zero, Complex.ofReal_zero]
  rwa [h0] at h

/-- **C48**: `gluon::thermal::zero_momentum::polarization_quark_t_thermal_part_landau_i` tends to its zero-temperature variant, except at the Fermi surface. -/
theorem C48_gluon_thermal_zero_momentum_polarization_quark_t {q : ℝ} (hq : 0 < q) (k : Consts ℝ) (om : T) (mq : ℝ) (mu : ℝ)
    (hF : energy q mq ≠ |mu|) :
    Tendsto (fun b : ℝ => toC (gluon.thermal.zero_momentum.polarization_quark_t_thermal_part_landau_i k q om mq b mu)) atTop (𝓝 (toC (gluon.thermal.zero_momentum.polarization_quark_t_thermal_part_zero_temp_landau_i k q om mq mu))) := by
  have hd := fermi_double_tendsto hq mq mu hF
  simp only [gluon.thermal.zero_momentum.polarization_quark_t_thermal_part_landau_i, gluon.thermal.zero_momentum.polarization_quark_l_thermal_part_landau_i, gluon.thermal.zero_momentum.polarization_quark_t_thermal_part_zero_temp_landau_i, gluon.thermal.zero_momentum.polarization_quark_l_thermal_part_zero_temp_landau_i, toC_real, toC_complex, toC_ofR, ofR_real, ofR_complex, map_add, map_sub, map_neg, map_mul, map_div₀, map_inv₀]
  exact (((tendsto_ofReal hd).const_mul _).mul_const _).mul_const _

/-- **C48**: `gluon::thermal::zero_momentum::polarization_quark_t_thermal_part_landau_i` vanishes as `beta → ∞` outside the Fermi sphere, in particular for `|mu| < |mq|`. -/
theorem C48_gluon_thermal_zero_momentum_polarization_quark_t_outside {q : ℝ} (hq : 0 < q) (k : Consts ℝ) (om : T) (mq : ℝ) (mu : ℝ)
    (hF : |mu| < energy q mq) :
    Tendsto (fun b : ℝ => toC (gluon.thermal.zero_momentum.polarization_quark_t_thermal_part_landau_i k q om mq b mu)) atTop (𝓝 0) := by
  have h := C48_gluon_thermal_zero_momentum_polarization_quark_t hq k om mq mu hF.ne'
  have hz : fermi_distribution_double_zero_temp (energy q mq) mu = 0 := by
    rw [C15_double_zero_temp_value _ _ (zt_energy_pos hq mq), if_neg (not_le.2 hF)]
  have h0 : toC (gluon.thermal.zero_momentum.polarization_quark_t_thermal_part_zero_temp_landau_i k q om mq mu) = 0 := by
    simp only [gluon.thermal.zero_momentum.polarization_quark_t_thermal_part_landau_i, gluon.thermal.zero_momentum.polarization_quark_l_thermal_part_landau_i, gluon.thermal.zero_momentum.polarization_quark_t_thermal_part_zero_temp_landau_i, gluon.thermal.zero_momentum.polarization_quark_l_thermal_part_zero_temp_landau_i, toC_real, toC_complex, toC_ofR, ofR_real, ofR_complex, map_add, map_sub, map_neg, map_mul, map_div₀, map_inv₀, hz, mul_zero, zero_mul, neg_zero, zero_div, ofR_zero, map_zero, Complex.ofReal_zero]
  rwa [h0] at h

/-! ### The hypotheses can be met -/

example : |(1 : ℝ)| < energy 1 1 ∧ energy 1 1 ≠ |(5 : ℝ)| := by
  have h : energy (1 : ℝ) (1 : ℝ) = Real.sqrt (1 * 1 + 1 * 1) := rfl
  rw [h]
  constructor
  · rw [abs_one]
    exact Real.lt_sqrt_of_sq_lt (by norm_num)
  · apply ne_of_lt
    rw [abs_of_pos (by norm_num : (0 : ℝ) < 5)]
    exact (Real.sqrt_lt' (by norm_num)).2 (by norm_num)

end Qcd
