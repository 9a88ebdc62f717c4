import Mathlib.Analysis.SpecialFunctions.PolarCoord
import Mathlib.MeasureTheory.Function.JacobianOneDim
import Mathlib.MeasureTheory.Constructions.HaarToSphere
import Mathlib.MeasureTheory.Integral.Prod
import Mathlib.MeasureTheory.Integral.IntervalIntegral.Basic

/-! # Spherical coordinates for functions with an axis of symmetry -/

namespace Qcd.Spherical
open MeasureTheory Set
open scoped Real ENNReal

/-- A function of the position along an axis and of the distance from it. -/
noncomputable def around (f : ℝ × ℝ → ℂ) (v : ℝ × ℝ × ℝ) : ℂ := f (v.1, √(v.2.1 ^ 2 + v.2.2 ^ 2))

theorem measurable_around {f : ℝ × ℝ → ℂ} (hf : Measurable f) : Measurable (around f) := by
  unfold around
  exact hf.comp (by fun_prop)

/-- Half plane, with the measure. -/
noncomputable def half (f : ℝ × ℝ → ℂ) (u : ℝ × ℝ) : ℂ := if 0 < u.2 then (u.2 : ℂ) * f u else 0

theorem measurable_half {f : ℝ × ℝ → ℂ} (hf : Measurable f) : Measurable (half f) := by
  unfold half
  refine Measurable.ite (measurableSet_lt measurable_const measurable_snd) ?_ measurable_const
  exact (Complex.measurable_ofReal.comp measurable_snd).mul hf

theorem sqrt_polar {r : ℝ} (hr : 0 < r) (t : ℝ) : √((r * Real.cos t) ^ 2 + (r * Real.sin t) ^ 2) = r := by
  rw [show (r * Real.cos t) ^ 2 + (r * Real.sin t) ^ 2 = r ^ 2 * (Real.sin t ^ 2 + Real.cos t ^ 2) by ring, Real.sin_sq_add_cos_sq, mul_one,
    Real.sqrt_sq hr.le]

theorem volume_angle : volume (Ioo (-π) π) = ENNReal.ofReal (2 * π) := by
  rw [Real.volume_Ioo]; congr 1; ring

/-- The two directions around the axis. -/
theorem lintegral_plane (g : ℝ → ℝ≥0∞) (hg : Measurable g) :
    ∫⁻ u : ℝ × ℝ, g √(u.1 ^ 2 + u.2 ^ 2) = ENNReal.ofReal (2 * π) * ∫⁻ r in Ioi (0 : ℝ), ENNReal.ofReal r * g r := by
  rw [← lintegral_comp_polarCoord_symm]
  have h1 : ∫⁻ p in polarCoord.target, ENNReal.ofReal p.1 • g √((polarCoord.symm p).1 ^ 2 + (polarCoord.symm p).2 ^ 2) =
      ∫⁻ p in Ioi (0 : ℝ) ×ˢ Ioo (-π) π, ENNReal.ofReal p.1 * g p.1 := by
    refine setLIntegral_congr_fun (measurableSet_Ioi.prod measurableSet_Ioo) ?_
    rintro ⟨r, t⟩ ⟨hr, -⟩
    simp only [polarCoord_symm_apply, smul_eq_mul]
    rw [sqrt_polar hr]
  rw [h1, Measure.volume_eq_prod, setLIntegral_prod]
  · simp only [lintegral_const, MeasurableSet.univ, Measure.restrict_apply, univ_inter, volume_angle]
    rw [lintegral_mul_const _ (by fun_prop), mul_comm]
  · fun_prop

theorem integral_plane (g : ℝ → ℂ) :
    ∫ u : ℝ × ℝ, g √(u.1 ^ 2 + u.2 ^ 2) = 2 * π * ∫ r in Ioi (0 : ℝ), (r : ℂ) * g r := by
  rw [← integral_comp_polarCoord_symm]
  have h1 : ∫ p in polarCoord.target, p.1 • g √((polarCoord.symm p).1 ^ 2 + (polarCoord.symm p).2 ^ 2) =
      ∫ p in Ioi (0 : ℝ) ×ˢ Ioo (-π) π, ((p.1 : ℂ) * g p.1) * (1 : ℂ) := by
    refine setIntegral_congr_fun (measurableSet_Ioi.prod measurableSet_Ioo) ?_
    rintro ⟨r, t⟩ ⟨hr, -⟩
    simp only [polarCoord_symm_apply, Complex.real_smul, mul_one]
    rw [sqrt_polar hr]
  rw [h1, Measure.volume_eq_prod]
  refine (setIntegral_prod_mul (fun r : ℝ => (r : ℂ) * g r) (fun _ => (1 : ℂ)) (Ioi 0) (Ioo (-π) π)).trans ?_
  rw [mul_comm]
  congr 1
  simp [Measure.real, Real.pi_pos.le]
  ring

theorem integrable_half {f : ℝ × ℝ → ℂ} (hf : Measurable f) (hi : Integrable (around f)) : Integrable (half f) := by
  refine ⟨(measurable_half hf).aestronglyMeasurable, ?_⟩
  have h := hi.2
  rw [HasFiniteIntegral] at h ⊢
  have e : ∫⁻ v, ‖around f v‖ₑ = ENNReal.ofReal (2 * π) * ∫⁻ u, ‖half f u‖ₑ := by
    rw [Measure.volume_eq_prod, lintegral_prod _ (measurable_around hf).enorm.aemeasurable,
      Measure.volume_eq_prod, lintegral_prod _ (measurable_half hf).enorm.aemeasurable,
      ← lintegral_const_mul _ ((measurable_half hf).enorm.lintegral_prod_right')]
    refine lintegral_congr fun x => ?_
    have := lintegral_plane (fun r => ‖f (x, r)‖ₑ) (hf.comp (measurable_prodMk_left)).enorm
    simp only [around]
    refine this.trans ?_
    congr 1
    rw [← lintegral_indicator measurableSet_Ioi]
    refine lintegral_congr fun r => ?_
    simp only [half, indicator, mem_Ioi]
    split_ifs with h0
    · rw [enorm_mul]
      congr 1
      rw [← ofReal_norm_eq_enorm]; simp [abs_of_pos h0]
    · simp
  rw [e] at h
  have h2 : ENNReal.ofReal (2 * π) ≠ 0 := by
    simp [Real.pi_pos]
  by_contra h3
  rw [not_lt, top_le_iff] at h3
  rw [h3, ENNReal.mul_top h2] at h
  exact lt_irrefl _ h

theorem integral_angle (g : ℝ → ℝ → ℂ) {q : ℝ} (hq : 0 < q) :
    ∫ t in Ioo (-π) π, (if 0 < q * Real.sin t then ((q * Real.sin t : ℝ) : ℂ) * g (Real.cos t) (Real.sin t) else 0)
      = q * ∫ c in (-1 : ℝ)..1, g c √(1 - c ^ 2) := by
  have h1 : ∫ t in Ioo (-π) π, (if 0 < q * Real.sin t then ((q * Real.sin t : ℝ) : ℂ) * g (Real.cos t) (Real.sin t) else 0) =
      ∫ t in Ioo 0 π, ((q * Real.sin t : ℝ) : ℂ) * g (Real.cos t) (Real.sin t) := by
    rw [← integral_indicator measurableSet_Ioo, ← integral_indicator measurableSet_Ioo]
    congr 1
    ext t
    simp only [indicator, mem_Ioo]
    by_cases ht : 0 < t ∧ t < π
    · have hs := Real.sin_pos_of_pos_of_lt_pi ht.1 ht.2
      rw [if_pos ht, if_pos ⟨by linarith [Real.pi_pos], ht.2⟩, if_pos (mul_pos hq hs)]
    · rw [if_neg ht]
      by_cases h2 : -π < t ∧ t < π
      · have h3 : t ≤ 0 := by
          by_contra h4
          exact ht ⟨not_le.1 h4, h2.2⟩
        have hs := Real.sin_nonpos_of_nonpos_of_neg_pi_le h3 h2.1.le
        rw [if_pos h2, if_neg (not_lt.2 (mul_nonpos_of_nonneg_of_nonpos hq.le hs))]
      · rw [if_neg h2]
  have h2 := integral_image_eq_integral_abs_deriv_smul (s := Ioo (0 : ℝ) π) measurableSet_Ioo
    (fun t _ => (Real.hasDerivAt_cos t).hasDerivWithinAt) (Real.injOn_cos.mono Ioo_subset_Icc_self)
    (fun c => g c √(1 - c ^ 2))
  have h3 : Real.cos '' Ioo 0 π = Ioo (-1) 1 := by
    ext c
    constructor
    · rintro ⟨t, ht, rfl⟩
      refine ⟨?_, ?_⟩
      · have := Real.strictAntiOn_cos (show t ∈ Icc 0 π from ⟨ht.1.le, ht.2.le⟩) (show π ∈ Icc 0 π from ⟨Real.pi_pos.le, le_rfl⟩) ht.2
        simpa using this
      · have := Real.strictAntiOn_cos (show (0 : ℝ) ∈ Icc 0 π from ⟨le_rfl, Real.pi_pos.le⟩) (show t ∈ Icc 0 π from ⟨ht.1.le, ht.2.le⟩) ht.1
        simpa using this
    · rintro ⟨h1, h2⟩
      exact ⟨Real.arccos c, ⟨Real.arccos_pos.2 h2, Real.arccos_lt_pi.2 h1⟩, Real.cos_arccos h1.le h2.le⟩
  rw [h1, intervalIntegral.integral_of_le (by norm_num), integral_Ioc_eq_integral_Ioo, ← h3, h2, ← integral_const_mul]
  refine setIntegral_congr_fun measurableSet_Ioo fun t ht => ?_
  have hs := Real.sin_pos_of_pos_of_lt_pi ht.1 ht.2
  simp only [abs_neg, abs_of_pos hs, Complex.real_smul]
  rw [← Real.sin_sq, Real.sqrt_sq hs.le]
  push_cast; ring

theorem integrableOn_polar {f : ℝ × ℝ → ℂ} (hf : Measurable f) (hi : Integrable (around f)) :
    IntegrableOn (fun p : ℝ × ℝ => p.1 • half f (polarCoord.symm p)) (Ioi (0 : ℝ) ×ˢ Ioo (-π) π) ((volume : Measure ℝ).prod volume) := by
  have hh := integrable_half hf hi
  refine ⟨?_, ?_⟩
  · have : Measurable fun p : ℝ × ℝ => p.1 • half f (polarCoord.symm p) := by
      simp only [Complex.real_smul]
      exact (Complex.measurable_ofReal.comp measurable_fst).mul ((measurable_half hf).comp continuous_polarCoord_symm.measurable)
    exact this.aestronglyMeasurable
  · have h := hh.2
    rw [HasFiniteIntegral] at h ⊢
    rw [← lintegral_comp_polarCoord_symm] at h
    refine lt_of_le_of_lt (le_of_eq ?_) h
    rw [show polarCoord.target = Ioi (0 : ℝ) ×ˢ Ioo (-π) π from rfl]
    refine setLIntegral_congr_fun (measurableSet_Ioi.prod measurableSet_Ioo) ?_
    rintro ⟨r, t⟩ ⟨hr, -⟩
    simp only [Complex.real_smul, enorm_mul, smul_eq_mul]
    congr 1
    rw [← ofReal_norm_eq_enorm]; simp [abs_of_pos (show 0 < r from hr)]

theorem polar_inner (f : ℝ × ℝ → ℂ) {q : ℝ} (hq : 0 < q) : ∫ t in Ioo (-π) π, (q, t).1 • half f (polarCoord.symm (q, t)) =
    (q : ℂ) ^ 2 * ∫ c in (-1 : ℝ)..1, f (q * c, q * √(1 - c ^ 2)) := by
  have := integral_angle (fun c s => f (q * c, q * s)) hq
  simp only [polarCoord_symm_apply, half, Complex.real_smul]
  rw [integral_const_mul, this]
  ring

/-- **Spherical coordinates.** -/
theorem integral_around {f : ℝ × ℝ → ℂ} (hf : Measurable f) (hi : Integrable (around f)) :
    ∫ v, around f v = 2 * π * ∫ q in Ioi (0 : ℝ), (q : ℂ) ^ 2 * ∫ c in (-1 : ℝ)..1, f (q * c, q * √(1 - c ^ 2)) := by
  have hh := integrable_half hf hi
  have h1 : ∫ v, around f v = 2 * π * ∫ u, half f u := by
    rw [Measure.volume_eq_prod, integral_prod _ hi, Measure.volume_eq_prod (α := ℝ) (β := ℝ), integral_prod _ hh, ← integral_const_mul]
    congr 1
    ext x
    have := integral_plane (fun r => f (x, r))
    simp only [around]
    refine this.trans ?_
    congr 1
    rw [← integral_indicator measurableSet_Ioi]
    congr 1
  rw [h1]
  congr 1
  rw [← integral_comp_polarCoord_symm, show polarCoord.target = Ioi (0 : ℝ) ×ˢ Ioo (-π) π from rfl, Measure.volume_eq_prod,
    setIntegral_prod _ (integrableOn_polar hf hi)]
  exact setIntegral_congr_fun measurableSet_Ioi fun q hq => polar_inner f hq

theorem integrableOn_radial {f : ℝ × ℝ → ℂ} (hf : Measurable f) (hi : Integrable (around f)) :
    IntegrableOn (fun q : ℝ => (q : ℂ) ^ 2 * ∫ c in (-1 : ℝ)..1, f (q * c, q * √(1 - c ^ 2))) (Ioi 0) := by
  have h := integrableOn_polar hf hi
  rw [IntegrableOn, ← Measure.prod_restrict] at h
  have h2 := h.integral_prod_left
  exact (integrableOn_congr_fun (fun q hq => (polar_inner f hq)) measurableSet_Ioi).1 h2

instance : (volume : Measure (ℝ × ℝ)).IsAddHaarMeasure := inferInstanceAs ((volume : Measure ℝ).prod (volume : Measure ℝ)).IsAddHaarMeasure
instance : (volume : Measure (ℝ × ℝ × ℝ)).IsAddHaarMeasure :=
  inferInstanceAs ((volume : Measure ℝ).prod (volume : Measure (ℝ × ℝ))).IsAddHaarMeasure

/-- Radial bounds. -/
theorem integrable_of_radial {h : ℝ × ℝ × ℝ → ℂ} (hm : AEStronglyMeasurable h) {B : ℝ → ℝ} (hB : IntegrableOn (fun y => y ^ 2 * B y) (Ioi 0))
    (hb : ∀ v, v ≠ 0 → ‖h v‖ ≤ B ‖v‖) : Integrable h := by
  have hd : Module.finrank ℝ (ℝ × ℝ × ℝ) = 3 := by simp
  have : Integrable (fun v : ℝ × ℝ × ℝ => B ‖v‖) := by
    rw [integrable_fun_norm_addHaar, hd]
    simpa using hB
  refine this.mono' hm ?_
  have h0 : ∀ᵐ v : ℝ × ℝ × ℝ, v ≠ 0 := by
    rw [ae_iff]; simp
  filter_upwards [h0] with v hv using hb v hv

end Qcd.Spherical
