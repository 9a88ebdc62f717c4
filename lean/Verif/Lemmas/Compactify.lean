import Mathlib.MeasureTheory.Function.JacobianOneDim
import Mathlib.MeasureTheory.Integral.IntervalIntegral.Basic
import Mathlib.Analysis.Calculus.Deriv.Inv
import Mathlib.Analysis.SpecialFunctions.Exp

/-! # The substitution `q = (1 - t) / t` -/

namespace Qcd
open MeasureTheory Set Filter Topology

theorem compactify_image : (fun t : ℝ => (1 - t) / t) '' Ioo 0 1 = Ioi 0 := by
  ext q
  simp only [mem_image, mem_Ioo, mem_Ioi]
  constructor
  · rintro ⟨t, ⟨h0, h1⟩, rfl⟩
    exact div_pos (by linarith) h0
  · intro hq
    refine ⟨1 / (1 + q), ⟨by positivity, ?_⟩, ?_⟩
    · rw [div_lt_one (by linarith)]; linarith
    · field_simp; ring

theorem compactify_injOn : InjOn (fun t : ℝ => (1 - t) / t) (Ioo 0 1) := by
  intro a ha b hb h
  have h0 := ha.1.ne'
  have h1 := hb.1.ne'
  simp only at h
  field_simp at h
  linarith

theorem compactify_deriv {t : ℝ} (ht : t ≠ 0) :
    HasDerivAt (fun t : ℝ => (1 - t) / t) (-(1 / (t * t))) t := by
  have := ((hasDerivAt_const t (1 : ℝ)).sub (hasDerivAt_id t)).div (hasDerivAt_id t) ht
  refine this.congr_deriv ?_
  simp only [id, Pi.sub_apply]
  field_simp
  ring

/-- Integrating `f((1-t)/t)/t²` over `(0, 1)` is integrating `f` over `(0, ∞)`. -/
theorem compactify_integral {E : Type} [NormedAddCommGroup E] [NormedSpace ℝ E] (f : ℝ → E) :
    ∫ t in (0 : ℝ)..1, (1 / (t * t)) • f ((1 - t) / t) = ∫ q in Ioi (0 : ℝ), f q := by
  rw [← compactify_image, integral_image_eq_integral_abs_deriv_smul measurableSet_Ioo
    (fun t ht => (compactify_deriv ht.1.ne').hasDerivWithinAt) compactify_injOn,
    intervalIntegral.integral_of_le zero_le_one, integral_Ioc_eq_integral_Ioo]
  refine setIntegral_congr_fun measurableSet_Ioo fun t ht => ?_
  have : 0 < 1 / (t * t) := by have := ht.1; positivity
  simp only [abs_neg, abs_of_pos this]

theorem compactify_real (f : ℝ → ℝ) :
    ∫ t in (0 : ℝ)..1, f ((1 - t) / t) / (t * t) = ∫ q in Ioi (0 : ℝ), f q := by
  rw [← compactify_integral]
  refine intervalIntegral.integral_congr fun t _ => ?_
  simp only [smul_eq_mul]; ring

theorem compactify_cplx (f : ℝ → ℂ) :
    ∫ t in (0 : ℝ)..1, f ((1 - t) / t) / ((t * t : ℝ) : ℂ) = ∫ q in Ioi (0 : ℝ), f q := by
  rw [← compactify_integral]
  refine intervalIntegral.integral_congr fun t _ => ?_
  simp only [Complex.real_smul]; push_cast; ring

/-- If `f` is continuous and `f(q) q²` vanishes at infinity, the compactified integrand (with the
value `0` the division gives at `t = 0`) is continuous on `[0, 1]`. -/
theorem compactify_continuousOn {f : ℝ → ℝ} (hf : ContinuousOn f (Ici 0))
    (h : Tendsto (fun q => f q * ((1 + q) * (1 + q))) atTop (𝓝 0)) :
    ContinuousOn (fun t => f ((1 - t) / t) / (t * t)) (Icc 0 1) := by
  intro t ht
  rcases eq_or_lt_of_le ht.1 with h0 | h0
  · subst h0
    rw [ContinuousWithinAt]
    have hz : f ((1 - 0) / 0) / ((0 : ℝ) * 0) = 0 := by simp
    rw [hz]
    have hsub : 𝓝[Icc (0:ℝ) 1] 0 ≤ 𝓝[{0}] 0 ⊔ 𝓝[Ioi 0] 0 := by
      rw [← nhdsWithin_union]
      apply nhdsWithin_mono
      intro x hx
      rcases eq_or_lt_of_le hx.1 with h | h
      · left; exact h.symm
      · right; exact h
    refine Tendsto.mono_left ?_ hsub
    rw [tendsto_sup]
    constructor
    · rw [nhdsWithin_singleton]
      have := tendsto_pure_nhds (fun t : ℝ => f ((1 - t) / t) / (t * t)) 0
      simpa using this
    · have hq : Tendsto (fun t : ℝ => (1 - t) / t) (𝓝[>] 0) atTop := by
        have h1 : Tendsto (fun t : ℝ => t⁻¹ - 1) (𝓝[>] 0) atTop :=
          tendsto_atTop_add_const_right _ _ tendsto_inv_nhdsGT_zero
        refine h1.congr' ?_
        filter_upwards [self_mem_nhdsWithin] with t ht
        have : t ≠ 0 := ne_of_gt ht
        field_simp
      refine (h.comp hq).congr' ?_
      filter_upwards [self_mem_nhdsWithin] with t ht
      have : t ≠ 0 := ne_of_gt ht
      simp only [Function.comp]
      have : 1 + (1 - t) / t = 1 / t := by field_simp; ring
      rw [this]; field_simp
  · have hq : (1 - t) / t ∈ Ici (0 : ℝ) := div_nonneg (by linarith [ht.2]) ht.1
    have hc : ContinuousWithinAt (fun t : ℝ => (1 - t) / t) (Icc 0 1 ∩ Ioi 0) t :=
      (compactify_deriv h0.ne').continuousAt.continuousWithinAt
    have h1 : ContinuousWithinAt (fun t => f ((1 - t) / t) / (t * t)) (Icc 0 1 ∩ Ioi 0) t := by
      have hm : MapsTo (fun t : ℝ => (1 - t) / t) (Icc 0 1 ∩ Ioi 0) (Ici 0) := fun x hx =>
        div_nonneg (by linarith [hx.1.2]) hx.1.1
      have h2 : ContinuousWithinAt (f ∘ fun t : ℝ => (1 - t) / t) (Icc 0 1 ∩ Ioi 0) t :=
        ContinuousWithinAt.comp (t := Ici 0) (hf _ hq) hc hm
      exact ContinuousWithinAt.div h2 (by fun_prop) (mul_self_ne_zero.2 h0.ne')
    exact h1.mono_of_mem_nhdsWithin (inter_mem self_mem_nhdsWithin
      (mem_nhdsWithin_of_mem_nhds (Ioi_mem_nhds h0)))

end Qcd
