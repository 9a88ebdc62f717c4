import Verif.Model.ExampleHtl
import Verif.Spec.Overall
import Verif.Props.HighTemperature
import Verif.Props.ThermalReal
import Mathlib.Analysis.SpecialFunctions.Trigonometric.Arctan
import Mathlib.Analysis.SpecialFunctions.Trigonometric.Bounds

/-! # C95: the comparison with the hard-thermal-loop formulas

`examples/qed_htl_limit.rs`. -/

namespace Qcd
open consts (Consts)
open examples.qed_htl_limit
open Complex Filter Topology
open scoped ComplexConjugate
variable {om p : ℝ}

/-- The formulas of the program are the textbook ones. -/
theorem C95_formulas (om p t : ℝ) : f_htl om p t = Spec.htl_l om p (t ^ 2) ∧ g_htl om p t = Spec.htl_t om p (t ^ 2) := by
  have h : f_htl om p t = Spec.htl_l om p (t ^ 2) := by
    simp only [f_htl, Spec.htl_l, toC_real, ofR_real]
    push_cast
    rw [mul_pow, I_sq]
    ring_nf
  refine ⟨h, ?_⟩
  simp only [g_htl, h, Spec.htl_t]
  push_cast
  ring

/-- The trace: longitudinal plus twice transverse is the square of the Debye mass. -/
theorem C95_trace (om p t : ℝ) : f_htl om p t + 2 * g_htl om p t = (t : ℂ) ^ 2 / 3 := by
  simp only [g_htl]
  push_cast
  ring

theorem htl_l_scale (om p t2 : ℝ) : Spec.htl_l om p t2 = t2 * Spec.htl_l om p 1 := by
  simp only [Spec.htl_l]; push_cast; ring

theorem htl_t_scale (om p t2 : ℝ) : Spec.htl_t om p t2 = t2 * Spec.htl_t om p 1 := by
  simp only [Spec.htl_t, htl_l_scale om p t2]; push_cast; ring

/-- In terms of the arc tangent. -/
theorem htl_l_arctan (ho : om ≠ 0) (hp : p ≠ 0) (t2 : ℝ) :
    Spec.htl_l om p t2 = ((om ^ 2 + p ^ 2) * (t2 / 3) / p ^ 2 * (1 - om / p * Real.arctan (p / om)) : ℝ) := by
  have hoc : (om : ℂ) ≠ 0 := ofReal_ne_zero.2 ho
  have hpc : (p : ℂ) ≠ 0 := ofReal_ne_zero.2 hp
  have hne : I * om - p ≠ 0 := fun h => by
    have := congrArg Complex.re h
    simp at this
    exact hp this
  have hl : log ((I * om + p) / (I * om - p)) = -(2 * Real.arctan (p / om) : ℝ) * I := by
    set θ := Real.arctan (p / om) with hθ
    have hc : Real.cos θ ≠ 0 := (Real.cos_arctan_pos _).ne'
    have ht : Real.sin θ / Real.cos θ = p / om := by rw [← Real.tan_eq_sin_div_cos, hθ, Real.tan_arctan]
    have e : (I * om + p) / (I * om - p) = exp (-(2 * θ : ℝ) * I) := by
      have hs : (Real.sin θ : ℂ) = p / om * Real.cos θ := by
        rw [← ofReal_div, ← ofReal_mul, ← ht]; congr 1; field_simp
      have h1 : exp (-(2 * θ : ℝ) * I) = exp (-(θ : ℂ) * I) / exp ((θ : ℂ) * I) := by
        rw [← exp_sub]; congr 1; push_cast; ring
      have hcc : (Real.cos θ : ℂ) ≠ 0 := ofReal_ne_zero.2 hc
      rw [h1, exp_mul_I, exp_mul_I, cos_neg, sin_neg, ← ofReal_cos, ← ofReal_sin, hs]
      have hd : (Real.cos θ : ℂ) + p / om * Real.cos θ * I ≠ 0 := by
        rw [show (Real.cos θ : ℂ) + p / om * Real.cos θ * I = Real.cos θ / om * -I * (I * om - p) by
          field_simp; ring_nf; rw [I_sq]; ring]
        exact mul_ne_zero (mul_ne_zero (div_ne_zero hcc hoc) (neg_ne_zero.2 I_ne_zero)) hne
      rw [div_eq_div_iff hne hd]
      field_simp
      ring_nf
      rw [I_sq]
      ring
    rw [e, log_exp]
    · have := Real.arctan_lt_pi_div_two (p / om)
      simp only [neg_mul, neg_im, mul_im, ofReal_re, I_im, mul_one, ofReal_im, I_re, mul_zero, add_zero]
      linarith
    · have := Real.neg_pi_div_two_lt_arctan (p / om)
      simp only [neg_mul, neg_im, mul_im, ofReal_re, I_im, mul_one, ofReal_im, I_re, mul_zero, add_zero]
      linarith
  rw [Spec.htl_l, hl]
  push_cast
  have : I * (om : ℂ) / (2 * p) * (-(2 * (Real.arctan (p / om) : ℂ)) * I) = om / p * Real.arctan (p / om) := by
    field_simp
    rw [I_sq]
    ring
  rw [this, mul_pow, I_sq]
  ring

theorem arctan_lt_of_pos {x : ℝ} (hx : 0 < x) : Real.arctan x < x := by
  have := Real.lt_tan (Real.arctan_pos.2 hx) (Real.arctan_lt_pi_div_two x)
  rwa [Real.tan_arctan] at this

theorem arctan_div_lt {x : ℝ} (hx : x ≠ 0) : x⁻¹ * Real.arctan x < 1 := by
  have pos : ∀ y : ℝ, 0 < y → y⁻¹ * Real.arctan y < 1 := fun y h => by
    rw [inv_mul_lt_iff₀ h, mul_one]
    exact arctan_lt_of_pos h
  rcases lt_or_gt_of_ne hx with h | h
  · have := pos (-x) (neg_pos.2 h)
    rwa [Real.arctan_neg, inv_neg, neg_mul_neg] at this
  · exact pos x h

/-- The longitudinal formula is real and positive. -/
theorem C95_positive (ho : om ≠ 0) (hp : p ≠ 0) {t : ℝ} (ht : t ≠ 0) : (f_htl om p t).im = 0 ∧ 0 < (f_htl om p t).re := by
  rw [(C95_formulas om p t).1, htl_l_arctan ho hp, ofReal_im, ofReal_re]
  refine ⟨rfl, ?_⟩
  have h1 : om / p * Real.arctan (p / om) < 1 := by
    have := arctan_div_lt (div_ne_zero hp ho)
    rwa [inv_div] at this
  have h2 : 0 < om ^ 2 := by positivity
  have h3 : 0 < p ^ 2 := by positivity
  have h4 : 0 < t ^ 2 := by positivity
  have h5 : 0 < 1 - om / p * Real.arctan (p / om) := by linarith
  positivity

/-- **C95** (convergence): with three colours and an exact integral, the curves "ours" converge to the curves "HTL" as the temperature
grows, at every frequency and momentum: the difference is small with respect to the square of the temperature, and the longitudinal ratio goes to 1. -/
theorem C95_limit (ho : om ≠ 0) (hp : p ≠ 0) (k : Consts ℝ) (hk : k.nc = 3) :
    Tendsto (fun t : ℝ => (f_ours .exact k om p t - f_htl om p t) / (t : ℂ) ^ 2) atTop (𝓝 0) ∧
    Tendsto (fun t : ℝ => (g_ours .exact k om p t - g_htl om p t) / (t : ℂ) ^ 2) atTop (𝓝 0) ∧
    Tendsto (fun t : ℝ => f_ours .exact k om p t / f_htl om p t) atTop (𝓝 1) := by
  have e6 : -2 * (k.nc : ℂ) = -6 := by rw [hk]; norm_num
  have hl := C75_quark_l_fixed_mu ho hp ME 0 k (by rw [hk]; norm_num) (consts.get_default_integration_method k)
  have ht := C75_quark_t_fixed_mu ho hp ME 0 k (by rw [hk]; norm_num) (consts.get_default_integration_method k)
  rw [e6] at hl ht
  refine ⟨?_, ?_, ?_⟩
  · have := hl.sub_const (Spec.htl_l om p 1)
    rw [sub_self] at this
    refine this.congr' ?_
    filter_upwards [eventually_gt_atTop 0] with t h0
    have h0 : (t : ℂ) ≠ 0 := ofReal_ne_zero.2 h0.ne'
    rw [(C95_formulas om p t).1, htl_l_scale om p (t ^ 2), f_ours, gluon.thermal.polarization_quark_l_thermal_part_landau, one_div]
    push_cast
    field_simp
  · have := ht.sub_const (Spec.htl_t om p 1)
    rw [sub_self] at this
    refine this.congr' ?_
    filter_upwards [eventually_gt_atTop 0] with t h0
    have h0 : (t : ℂ) ≠ 0 := ofReal_ne_zero.2 h0.ne'
    rw [(C95_formulas om p t).2, htl_t_scale om p (t ^ 2), g_ours, gluon.thermal.polarization_quark_t_thermal_part_landau, one_div]
    push_cast
    field_simp
  · have hn : Spec.htl_l om p 1 ≠ 0 := by
      have := (C95_positive ho hp one_ne_zero).2
      rw [(C95_formulas om p 1).1, one_pow] at this
      intro h
      rw [h] at this
      exact lt_irrefl _ this
    have := hl.div_const (Spec.htl_l om p 1)
    rw [div_self hn] at this
    refine this.congr fun t => ?_
    rw [(C95_formulas om p t).1, htl_l_scale om p (t ^ 2), f_ours, gluon.thermal.polarization_quark_l_thermal_part_landau, one_div, div_div]
    push_cast
    rfl

/-- **C95** (imaginary parts): whatever the quadrature rule, all the curves of the plots of imaginary parts are zero. -/
theorem C95_imaginary {ig : Integrator} (hi : ig.Interior) (hc : ig.Conj) (ho : om ≠ 0) (hp : p ≠ 0) (k : Consts ℝ) {t : ℝ} (ht : 0 < t) :
    (f_htl om p t).im = 0 ∧ (f_ours ig k om p t).im = 0 ∧ (g_htl om p t).im = 0 ∧ (g_ours ig k om p t).im = 0 := by
  have h1 := (C95_positive ho hp ht.ne').1
  refine ⟨h1, ?_, ?_, ?_⟩
  · have := symmetric_real (int_quark_l (admissible_symmetric hi hc) k p ME (1 / t) 0 (by positivity) (consts.get_default_integration_method k)) ho
    rw [f_ours, gluon.thermal.polarization_quark_l_thermal_part_landau, re_quark_l, mul_im, this]
    norm_num
  · simp only [g_htl, sub_im, ofReal_im, div_ofNat_im, h1]
    norm_num
  · have := symmetric_real (int_quark_t (admissible_symmetric hi hc) k p ME (1 / t) 0 (by positivity) (consts.get_default_integration_method k)) ho
    rw [g_ours, gluon.thermal.polarization_quark_t_thermal_part_landau, re_quark_t, mul_im, this]
    norm_num

/-- **C95** (program): eight plots, two for each temperature; each has a label for each curve, and the curves are, in the order of the
labels, the longitudinal formula and the longitudinal loop, the transverse formula and the transverse loop at the 25 momenta
0.01, 0.03, …, 0.49. -/
theorem C95_program (ig : Integrator) (k : Consts ℝ) (fmt fmt2 : ℝ → String) :
    (main ig k fmt fmt2).length = 8 ∧
    (∀ pl ∈ main ig k fmt fmt2, tc.Spec.Plot.WellFormed pl ∧ pl.domain = (List.range 25).map fun j : ℕ => (1 + 2 * (j : ℝ)) / 100) ∧
    main ig k fmt fmt2 = ([1, 2, 5, 10] : List ℝ).flatMap fun t => [(("_re.png" : String), Complex.re), ("_im.png", Complex.im)].map fun part =>
      { path := "target/qed_htl_limit/T" ++ fmt2 t ++ part.1
        domain := (List.range 25).map fun j : ℕ => (1 + 2 * (j : ℝ)) / 100
        legend := ["(long., HTL)", "(long., ours)", "(trans., HTL)", "(trans., ours)"].map fun s => "$T=" ++ fmt t ++ "$ MeV " ++ s
        images := [fun p => f_htl (1 / 100 : ℝ) p t, fun p => f_ours ig k (1 / 100 : ℝ) p t, fun p => g_htl (1 / 100 : ℝ) p t,
          fun p => g_ours ig k (1 / 100 : ℝ) p t].map fun F => ((List.range 25).map fun j : ℕ => (1 + 2 * (j : ℝ)) / 100).map fun p => part.2 (F p) } := by
  have em : momenta = (List.range 25).map fun j : ℕ => (1 + 2 * (j : ℝ)) / 100 := by
    have : ⌊((5 : ℝ) / 10 - 1 / 100) / (2 / 100)⌋₊ = 24 := by
      rw [Nat.floor_eq_iff (by norm_num)]
      norm_num
    rw [momenta, tc.grid, this]
    refine List.map_congr_left fun j _ => ?_
    ring
  have key : main ig k fmt fmt2 = ([1, 2, 5, 10] : List ℝ).flatMap fun t => [(("_re.png" : String), Complex.re), ("_im.png", Complex.im)].map fun part =>
      { path := "target/qed_htl_limit/T" ++ fmt2 t ++ part.1
        domain := (List.range 25).map fun j : ℕ => (1 + 2 * (j : ℝ)) / 100
        legend := ["(long., HTL)", "(long., ours)", "(trans., HTL)", "(trans., ours)"].map fun s => "$T=" ++ fmt t ++ "$ MeV " ++ s
        images := [fun p => f_htl (1 / 100 : ℝ) p t, fun p => f_ours ig k (1 / 100 : ℝ) p t, fun p => g_htl (1 / 100 : ℝ) p t,
          fun p => g_ours ig k (1 / 100 : ℝ) p t].map fun F => ((List.range 25).map fun j : ℕ => (1 + 2 * (j : ℝ)) / 100).map fun p => part.2 (F p) } := by
    unfold main ts
    refine congrArg (fun f => List.flatMap f _) (funext fun t => ?_)
    have s1 : ∀ s : String, "$T=" ++ fmt t ++ "$ MeV " ++ s = "$T=" ++ fmt t ++ ("$ MeV " ++ s) := fun s => by rw [String.append_assoc]
    simp only [plots, em, List.map_cons, List.map_nil, List.map_map, examples.qed_htl_limit.om, s1]
    rfl
  refine ⟨by rw [key]; simp, ?_, key⟩
  rw [key]
  intro pl hpl
  simp only [List.mem_flatMap, List.mem_map] at hpl
  obtain ⟨t, -, part, -, rfl⟩ := hpl
  refine ⟨⟨?_, .inr ?_⟩, rfl⟩
  · intro im him
    simp only [List.map_cons, List.map_nil, List.mem_cons, List.not_mem_nil, or_false] at him
    rcases him with rfl | rfl | rfl | rfl <;> simp
  · simp

/-- **C95** (fermion): the curves "ours" are those of a fermion of mass 0.001 without chemical potential, six times the loop of the library
with the sign of the formulas, whatever the integrator; the mass is a thousandth of the lowest temperature plotted and a tenth of the lowest momentum
and of the frequency. -/
theorem C95_fermion (ig : Integrator) (k : Consts ℝ) (fmt fmt2 : ℝ → String) : ∃ m : ℝ, m = 0.001 ∧
    (∀ om p t : ℝ, f_ours ig k om p t = -6 * gluon.thermal.polarization_quark_l_thermal_part_landau ig k om p m (1 / t) 0 ∧
      g_ours ig k om p t = -6 * gluon.thermal.polarization_quark_t_thermal_part_landau ig k om p m (1 / t) 0) ∧
    (∀ t ∈ ts, 1000 * m ≤ t) ∧ 10 * m ≤ examples.qed_htl_limit.om ∧
    ∀ pl ∈ main ig k fmt fmt2, ∀ p ∈ pl.domain, 10 * m ≤ p := by
  refine ⟨ME, by norm_num [ME], fun _ _ _ => ⟨rfl, rfl⟩, ?_, by norm_num [ME, examples.qed_htl_limit.om], ?_⟩
  · intro t ht
    simp only [ts, List.mem_cons, List.not_mem_nil, or_false] at ht
    rcases ht with rfl | rfl | rfl | rfl <;> norm_num [ME]
  · intro pl hpl p hp
    rw [((C95_program ig k fmt fmt2).2.1 pl hpl).2] at hp
    obtain ⟨j, -, rfl⟩ := List.mem_map.1 hp
    simp only [ME]
    have : (0 : ℝ) ≤ j := j.cast_nonneg
    linarith

-- the settings of the program meet the hypotheses: three colours initially, positive temperatures, frequency 0.01, momenta from 0.01
example : (consts.init : Consts ℝ).nc = 3 := by simp [consts.init]

example (j : ℕ) : (examples.qed_htl_limit.om : ℝ) ≠ 0 ∧ (1 + 2 * (j : ℝ)) / 100 ≠ 0 :=
  ⟨by norm_num [examples.qed_htl_limit.om], by positivity⟩

example : Tendsto (fun t : ℝ => f_ours .exact consts.init (1 / 100 : ℝ) (1 / 10) t / f_htl (1 / 100 : ℝ) (1 / 10) t) atTop (𝓝 1) :=
  (C95_limit (by norm_num) (by norm_num) _ (by simp [consts.init])).2.2

end Qcd
