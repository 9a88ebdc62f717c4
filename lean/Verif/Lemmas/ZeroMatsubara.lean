import Verif.Lemmas.ThermalBranch
import Mathlib.Analysis.SpecialFunctions.Complex.LogDeriv
import Mathlib.Analysis.SpecialFunctions.Log.Deriv

/-! # The logarithm of a leg as the frequency vanishes

For real arguments the logarithm of a leg may approach its cut as `ω → 0`; its real part converges, its imaginary part stays
bounded, and the two signs of the frequency are complex conjugate. Hence a combination `C(ω) L(ω) + C(-ω) L(-ω)` with `C`
continuous at zero tends to twice `C(0)` times the logarithm of the modulus. -/

set_option linter.unusedSimpArgs false

namespace Qcd
open Filter Topology

variable {q p E d : ℝ}

theorem ofReal_tendsto_zero' : Tendsto (fun om : ℝ => (om : ℂ)) (𝓝[≠] 0) (𝓝 0) := by
  have : Tendsto (fun om : ℝ => (om : ℂ)) (𝓝 0) (𝓝 ((0 : ℝ) : ℂ)) := Complex.continuous_ofReal.tendsto 0
  rw [Complex.ofReal_zero] at this
  exact this.mono_left nhdsWithin_le_nhds

theorem R0_freq_tendsto (p E d : ℂ) : Tendsto (fun om : ℝ => R0 om p E d) (𝓝[≠] 0) (𝓝 (p * p + d)) := by
  have h : Continuous (fun om : ℂ => R0 om p E d) := by unfold R0; fun_prop
  have := (h.tendsto 0).comp ofReal_tendsto_zero'
  simpa [R0, Function.comp_def] using this

theorem TL_re_tendsto (h1 : p * p + d + q * 2 * p ≠ 0) (h2 : p * p + d - q * 2 * p ≠ 0) :
    Tendsto (fun om : ℝ => ((TL q om p E d).re : ℂ)) (𝓝[≠] 0) (𝓝 (ZL q p d)) := by
  rw [ZL_ofReal]
  refine (Complex.continuous_ofReal.tendsto _).comp ?_
  have hR := R0_freq_tendsto (p : ℂ) E d
  have a1 : ((p : ℂ) * q * 2 + (p * p + d)) ≠ 0 := by
    have : ((p * p + d + q * 2 * p : ℝ) : ℂ) ≠ 0 := by exact_mod_cast h1
    intro h; apply this; push_cast; linear_combination h
  have a2 : (-((p : ℂ) * q * 2) + (p * p + d)) ≠ 0 := by
    have : ((p * p + d - q * 2 * p : ℝ) : ℂ) ≠ 0 := by exact_mod_cast h2
    intro h; apply this; push_cast; linear_combination h
  have hq := ((hR.const_add ((p : ℂ) * q * 2)).mul ((hR.const_add (-((p : ℂ) * q * 2))).inv₀ a2)).norm
  have hl := hq.log (by simpa using ⟨a1, a2⟩)
  simp only [TL, Complex.log_re, div_eq_mul_inv]
  convert hl using 2
  have e1 : ((p : ℂ) * q * 2 + (p * p + d)) * (-((p : ℂ) * q * 2) + (p * p + d))⁻¹
      = (((p * p + d + q * 2 * p) * (p * p + d - q * 2 * p)⁻¹ : ℝ) : ℂ) := by
    push_cast; congr 1
    · ring
    · congr 1; ring
  rw [e1, Complex.norm_real, Real.norm_eq_abs, Real.log_abs]
  have hne : (p * p + d + q * 2 * p) * (p * p + d - q * 2 * p)⁻¹ ≠ 0 := mul_ne_zero h1 (inv_ne_zero h2)
  rw [Real.log_mul hne hne]; ring

theorem TL_bounded (h1 : p * p + d + q * 2 * p ≠ 0) (h2 : p * p + d - q * 2 * p ≠ 0) :
    ∃ B : ℝ, ∀ᶠ om : ℝ in 𝓝[≠] 0, ‖TL q om p E d‖ ≤ B := by
  have h := (TL_re_tendsto (E := E) h1 h2).norm
  refine ⟨‖ZL q p d‖ + 1 + Real.pi, ?_⟩
  filter_upwards [h.eventually (eventually_le_nhds (show ‖ZL q p d‖ < ‖ZL q p d‖ + 1 by linarith))] with om ho
  refine (Complex.norm_le_abs_re_add_abs_im _).trans ?_
  have : |(TL q om p E d).im| ≤ Real.pi := by rw [TL, Complex.log_im]; exact Complex.abs_arg_le_pi _
  rw [Complex.norm_real, Real.norm_eq_abs] at ho
  linarith

theorem neg_tendsto : Tendsto (fun om : ℝ => -om) (𝓝[≠] 0) (𝓝[≠] 0) := by
  refine tendsto_nhdsWithin_iff.2 ⟨?_, ?_⟩
  · have : Tendsto (fun om : ℝ => -om) (𝓝 0) (𝓝 (-0)) := continuous_neg.tendsto 0
    rw [neg_zero] at this
    exact this.mono_left nhdsWithin_le_nhds
  · filter_upwards [self_mem_nhdsWithin] with x hx
    simpa using hx

theorem TL_small (h1 : p * p + d + q * 2 * p ≠ 0) (h2 : p * p + d - q * 2 * p ≠ 0) {C : ℝ → ℂ} (hC : ContinuousAt C 0) :
    Tendsto (fun om : ℝ => (C om - C 0) * TL q om p E d) (𝓝[≠] 0) (𝓝 0) := by
  obtain ⟨B, hB⟩ := TL_bounded (E := E) h1 h2
  have hc : Tendsto (fun om : ℝ => C om - C 0) (𝓝[≠] 0) (𝓝 0) := by
    have := (hC.tendsto.mono_left (nhdsWithin_le_nhds (s := {0}ᶜ))).sub_const (C 0)
    simpa using this
  have hb : IsBoundedUnder (· ≤ ·) (𝓝[≠] (0 : ℝ)) (norm ∘ fun om : ℝ => TL q om p E d) := ⟨B, by simpa [eventually_map] using hB⟩
  exact hc.zero_mul_isBoundedUnder_le hb

/-- The step common to all legs. -/
theorem leg_static (hE : E ≠ 0) (h1 : p * p + d + q * 2 * p ≠ 0) (h2 : p * p + d - q * 2 * p ≠ 0) {C : ℝ → ℂ} (hC : ContinuousAt C 0) :
    Tendsto (fun om : ℝ => C om * TL q om p E d + C (-om) * TL q (-(om : ℂ)) p E d) (𝓝[≠] 0) (𝓝 (2 * C 0 * ZL q p d)) := by
  have t1 := TL_small (E := E) h1 h2 hC
  have t2 := t1.comp neg_tendsto
  have t3 := ((TL_re_tendsto (E := E) h1 h2).const_mul (2 * C 0)).add (t1.add t2)
  rw [add_zero, add_zero] at t3
  refine t3.congr' ?_
  filter_upwards [self_mem_nhdsWithin] with om hom
  have hom' : om ≠ 0 := by simpa using hom
  have him : (R0 om p E d).im ≠ 0 := by
    rw [R0_im _ _ (by simp) (by simp)]
    simp [hom', hE]
  have hc := TL_conj (q := q) (en := E) (d := d) (by simp) (by simp) him
  have hs : 2 * ((TL q om p E d).re : ℂ) = TL q om p E d + TL q (-(om : ℂ)) p E d := by
    rw [← hc, Complex.add_conj]; push_cast; rfl
  simp only [Function.comp, Complex.ofReal_neg]
  linear_combination (C 0) * hs

end Qcd
