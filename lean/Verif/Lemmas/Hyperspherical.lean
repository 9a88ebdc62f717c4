import Mathlib.Analysis.SpecialFunctions.PolarCoord
import Mathlib.MeasureTheory.Constructions.HaarToSphere
import Mathlib.MeasureTheory.Constructions.Pi
import Mathlib.MeasureTheory.Measure.Haar.InnerProductSpace
import Mathlib.MeasureTheory.Measure.Lebesgue.VolumeOfBalls
import Mathlib.MeasureTheory.Measure.WithDensity

/-! # Four-dimensional integrals of functions with an axis of symmetry -/

namespace Qcd.Hyper
open MeasureTheory Set
open scoped Real ENNReal

abbrev E3 := EuclideanSpace ℝ (Fin 3)
abbrev E4 := EuclideanSpace ℝ (Fin 4)

theorem lintegral_norm3 {g : ℝ → ℝ≥0∞} (hg : Measurable g) :
    ∫⁻ x : E3, g ‖x‖ = ∫⁻ r in Ioi (0 : ℝ), ENNReal.ofReal (4 * π * r ^ 2) * g r := by
  have h1 : ∫⁻ x : E3, g ‖x‖ = ∫⁻ x : ({(0 : E3)}ᶜ : Set E3), g ‖x.1‖ ∂((volume : Measure E3).comap (↑)) := by
    rw [lintegral_subtype_comap (measurableSet_singleton _).compl fun x => g ‖x‖, restrict_compl_singleton]
  have h2 := (volume : Measure E3).measurePreserving_homeomorphUnitSphereProd.lintegral_comp (f := fun x => g x.2.1)
    (hg.comp (measurable_subtype_coe.comp measurable_snd))
  simp only [homeomorphUnitSphereProd_apply_snd_coe] at h2
  have hm : Measurable fun x : Metric.sphere (0 : E3) 1 × Ioi (0 : ℝ) => g x.2.1 := hg.comp (measurable_subtype_coe.comp measurable_snd)
  rw [h1, h2, lintegral_prod _ hm.aemeasurable]
  simp only [lintegral_const]
  rw [Measure.toSphere_apply_univ, Measure.volumeIoiPow, lintegral_withDensity_eq_lintegral_mul _ (by fun_prop) (show Measurable fun y : Ioi (0 : ℝ) => g y.1 from hg.comp measurable_subtype_coe)]
  simp only [Pi.mul_apply]
  rw [lintegral_subtype_comap measurableSet_Ioi fun r : ℝ => ENNReal.ofReal (r ^ (Module.finrank ℝ E3 - 1)) * g r,
    ← lintegral_mul_const _ (by fun_prop)]
  refine setLIntegral_congr_fun measurableSet_Ioi fun r hr => ?_
  have e : (Module.finrank ℝ E3 : ℝ≥0∞) * volume (Metric.ball (0 : E3) 1) = ENNReal.ofReal (4 * π) := by
    rw [EuclideanSpace.volume_ball_fin_three]
    simp only [finrank_euclideanSpace, Fintype.card_fin, ENNReal.ofReal_one, one_pow, one_mul]
    rw [show ((3 : ℕ) : ℝ≥0∞) = ENNReal.ofReal 3 by simp, ← ENNReal.ofReal_mul (by norm_num)]
    congr 1
    ring
  simp only [finrank_euclideanSpace, Fintype.card_fin] at e ⊢
  rw [e, ENNReal.ofReal_mul (p := 4 * π) (by positivity)]
  ring

/-- The components of `Q` other than the first. -/
noncomputable def tail (Q : E4) : E3 := WithLp.toLp 2 fun i => Q i.succ

theorem measurable_tail : Measurable tail := by
  unfold tail
  fun_prop

theorem norm_sq_eq (Q : E4) : ‖Q‖ ^ 2 = Q 0 ^ 2 + ‖tail Q‖ ^ 2 := by
  rw [EuclideanSpace.norm_sq_eq, EuclideanSpace.norm_sq_eq, Fin.sum_univ_succ]
  simp [tail]

theorem lintegral_split {g : ℝ × E3 → ℝ≥0∞} (hg : Measurable g) : ∫⁻ Q : E4, g (Q 0, tail Q) = ∫⁻ x : ℝ, ∫⁻ v : E3, g (x, v) := by
  have h1 := (PiLp.volume_preserving_ofLp (Fin 4)).lintegral_comp (f := fun w => g (w 0, WithLp.toLp 2 fun i => w i.succ)) (by fun_prop)
  have h2 := (volume_preserving_piFinSuccAbove (fun _ : Fin 4 => ℝ) 0).lintegral_comp (f := fun u => g (u.1, WithLp.toLp 2 u.2)) (by fun_prop)
  refine h1.trans (Eq.trans ?_ (h2.trans ?_))
  · refine lintegral_congr fun w => ?_
    congr 2
  · rw [Measure.volume_eq_prod, lintegral_prod _ (by fun_prop)]
    refine lintegral_congr fun x => ?_
    exact (PiLp.volume_preserving_toLp (Fin 3)).lintegral_comp (f := fun v => g (x, v)) (by fun_prop)

/-- Position along the first axis and distance from it. -/
noncomputable def axis (Q : E4) : ℝ × ℝ := (Q 0, ‖tail Q‖)

theorem measurable_axis : Measurable axis := by
  unfold axis
  have := measurable_tail
  fun_prop

/-- The point of the plane of polar coordinates `p`. -/
noncomputable def polar (p : ℝ × ℝ) : ℝ × ℝ := (p.1 * Real.cos p.2, p.1 * Real.sin p.2)

theorem measurable_polar : Measurable polar := by unfold polar; fun_prop

theorem lintegral_axis {g : ℝ × ℝ → ℝ≥0∞} (hg : Measurable g) :
    ∫⁻ Q : E4, g (axis Q) = ∫⁻ p in Ioi (0 : ℝ) ×ˢ Ioo 0 π, ENNReal.ofReal (4 * π * p.1 ^ 3 * Real.sin p.2 ^ 2) * g (polar p) := by
  have h0 := lintegral_split (g := fun u => g (u.1, ‖u.2‖)) (by fun_prop)
  refine h0.trans ?_
  have h1 : ∀ x : ℝ, ∫⁻ v : E3, g (x, ‖v‖) = ∫⁻ r, (Ioi (0 : ℝ)).indicator (fun r => ENNReal.ofReal (4 * π * r ^ 2) * g (x, r)) r := fun x => by
    rw [lintegral_indicator measurableSet_Ioi]
    exact lintegral_norm3 (g := fun r => g (x, r)) (by fun_prop)
  simp only [h1]
  have hm : Measurable fun u : ℝ × ℝ => (Ioi (0 : ℝ)).indicator (fun r => ENNReal.ofReal (4 * π * r ^ 2) * g (u.1, r)) u.2 := by
    have : (fun u : ℝ × ℝ => (Ioi (0 : ℝ)).indicator (fun r => ENNReal.ofReal (4 * π * r ^ 2) * g (u.1, r)) u.2) =
        {u : ℝ × ℝ | 0 < u.2}.indicator fun u => ENNReal.ofReal (4 * π * u.2 ^ 2) * g u := by
      ext u
      simp [indicator]
    rw [this]
    refine Measurable.indicator (by fun_prop) (measurableSet_lt measurable_const measurable_snd)
  have h2 := lintegral_prod (μ := (volume : Measure ℝ)) (ν := (volume : Measure ℝ))
    (fun u : ℝ × ℝ => (Ioi (0 : ℝ)).indicator (fun r => ENNReal.ofReal (4 * π * r ^ 2) * g (u.1, r)) u.2) hm.aemeasurable
  rw [← h2, ← Measure.volume_eq_prod, ← lintegral_comp_polarCoord_symm]
  have e1 : ∀ f : ℝ × ℝ → ℝ≥0∞, ∫⁻ p in polarCoord.target, f p = ∫⁻ p, (Ioi (0 : ℝ) ×ˢ Ioo (-π) π).indicator f p := fun f => by
    rw [lintegral_indicator (measurableSet_Ioi.prod measurableSet_Ioo)]; rfl
  rw [e1, ← lintegral_indicator (measurableSet_Ioi.prod measurableSet_Ioo)]
  refine lintegral_congr fun p => ?_
  obtain ⟨r, t⟩ := p
  simp only [indicator, mem_prod, mem_Ioi, mem_Ioo, polarCoord_symm_apply, smul_eq_mul, polar]
  by_cases hr : 0 < r
  swap
  · simp [hr]
  by_cases ht : 0 < t ∧ t < π
  · have hs := Real.sin_pos_of_pos_of_lt_pi ht.1 ht.2
    rw [if_pos ⟨hr, by linarith [Real.pi_pos, ht.1], ht.2⟩, if_pos (mul_pos hr hs), if_pos ⟨hr, ht⟩, ← mul_assoc, ← ENNReal.ofReal_mul hr.le]
    congr 2
    ring
  · rw [if_neg (c := 0 < r ∧ 0 < t ∧ t < π) (fun h => ht h.2)]
    by_cases h2 : -π < t ∧ t < π
    · have h3 : t ≤ 0 := by
        by_contra h4
        exact ht ⟨not_le.1 h4, h2.2⟩
      have hs := Real.sin_nonpos_of_nonpos_of_neg_pi_le h3 h2.1.le
      rw [if_pos ⟨hr, h2⟩, if_neg (not_lt.2 (mul_nonpos_of_nonneg_of_nonpos hr.le hs)), mul_zero]
    · rw [if_neg fun h => h2 h.2]

/-- The measure of the coordinates. -/
noncomputable def mu4 : Measure (ℝ × ℝ) :=
  (volume.restrict (Ioi (0 : ℝ) ×ˢ Ioo 0 π)).withDensity fun p => ((4 * π * p.1 ^ 3 * Real.sin p.2 ^ 2).toNNReal : ℝ≥0∞)

theorem map_axis : (volume : Measure E4).map axis = mu4.map polar := by
  refine Measure.ext_of_lintegral _ fun g hg => ?_
  rw [lintegral_map hg measurable_axis, lintegral_map hg measurable_polar, lintegral_axis hg, mu4,
    lintegral_withDensity_eq_lintegral_mul _ (by fun_prop) (show Measurable fun a => g (polar a) from hg.comp measurable_polar)]
  rfl

theorem integrable_axis {f : ℝ × ℝ → ℝ} (hf : Measurable f) :
    Integrable (fun Q : E4 => f (axis Q)) ↔
      IntegrableOn (fun p : ℝ × ℝ => 4 * π * p.1 ^ 3 * Real.sin p.2 ^ 2 * f (polar p)) (Ioi (0 : ℝ) ×ˢ Ioo 0 π) := by
  have h1 := integrable_map_measure (μ := (volume : Measure E4)) (f := axis) (g := f) hf.aestronglyMeasurable measurable_axis.aemeasurable
  have h2 := integrable_map_measure (μ := mu4) (f := polar) (g := f) hf.aestronglyMeasurable measurable_polar.aemeasurable
  rw [map_axis] at h1
  refine (h1.symm.trans h2).trans ?_
  rw [mu4, integrable_withDensity_iff_integrable_smul (by fun_prop), IntegrableOn]
  refine integrable_congr ?_
  filter_upwards [ae_restrict_mem (measurableSet_Ioi.prod measurableSet_Ioo)] with p hp
  have : 0 ≤ 4 * π * p.1 ^ 3 * Real.sin p.2 ^ 2 := by
    have : 0 < p.1 := hp.1
    positivity
  simp [NNReal.smul_def, Real.coe_toNNReal _ this]

theorem integral_axis {f : ℝ × ℝ → ℝ} (hf : Measurable f) :
    ∫ Q : E4, f (axis Q) = ∫ p in Ioi (0 : ℝ) ×ˢ Ioo 0 π, 4 * π * p.1 ^ 3 * Real.sin p.2 ^ 2 * f (polar p) := by
  have h1 := integral_map (μ := (volume : Measure E4)) measurable_axis.aemeasurable hf.aestronglyMeasurable
  have h2 := integral_map (μ := mu4) measurable_polar.aemeasurable hf.aestronglyMeasurable
  rw [map_axis, h2] at h1
  rw [← h1, mu4, integral_withDensity_eq_integral_smul (by fun_prop)]
  refine setIntegral_congr_fun (measurableSet_Ioi.prod measurableSet_Ioo) fun p hp => ?_
  have : 0 ≤ 4 * π * p.1 ^ 3 * Real.sin p.2 ^ 2 := by
    have : 0 < p.1 := hp.1
    positivity
  simp [NNReal.smul_def, Real.coe_toNNReal _ this]

end Qcd.Hyper
