import Verif.Lemmas.VacuumGhost

/-! # Vacuum diagrams with an external polarisation: average over the directions orthogonal to the external momentum -/

namespace Qcd.Hyper
open MeasureTheory Set Spec Matrix
open scoped Real RealInnerProductSpace

/-- The other axes. -/
noncomputable def ax (i : Fin 4) : E4 := EuclideanSpace.single i 1

theorem norm_ax (i : Fin 4) : ‖ax i‖ = 1 := by simp [ax]

theorem inner_ax (i : Fin 4) (Q : E4) : (⟪ax i, Q⟫ : ℝ) = Q i := by
  rw [ax, EuclideanSpace.inner_single_left]
  simp

theorem inner_ax_e0 {i : Fin 4} (hi : i ≠ 0) : (⟪ax i, e0⟫ : ℝ) = 0 := by
  rw [inner_ax, e0]
  simp [hi]

/-- Rotation of the momentum on the first axis and of the polarisation on another one. -/
theorem exists_rotation_pol {P e : E4} (hP : P ≠ 0) (he : ‖e‖ = 1) (ho : (⟪e, P⟫ : ℝ) = 0) {i : Fin 4} (hi : i ≠ 0) :
    ∃ U : E4 ≃ₗᵢ[ℝ] E4, U (‖P‖ • e0) = P ∧ U (ax i) = e := by
  obtain ⟨V, hV⟩ := exists_rotation P
  have hn : ‖P‖ ≠ 0 := norm_ne_zero_iff.2 hP
  have h1 : ‖ax i‖ = ‖V.symm e‖ := by rw [norm_ax, LinearIsometryEquiv.norm_map, he]
  have h2 : (⟪V.symm e, e0⟫ : ℝ) = 0 := by
    have : (⟪V (V.symm e), V (‖P‖ • e0)⟫ : ℝ) = 0 := by rw [hV, LinearIsometryEquiv.apply_symm_apply, ho]
    rw [LinearIsometryEquiv.inner_map_map, inner_smul_right] at this
    exact (mul_eq_zero.1 this).resolve_left hn
  refine ⟨((ℝ ∙ (ax i - V.symm e))ᗮ.reflection).trans V, ?_, ?_⟩
  · have : (ℝ ∙ (ax i - V.symm e))ᗮ.reflection (‖P‖ • e0) = ‖P‖ • e0 := by
      rw [Submodule.reflection_eq_self_iff, Submodule.mem_orthogonal_singleton_iff_inner_right, inner_smul_right, inner_sub_left, inner_ax_e0 hi, h2]
      simp
    rw [LinearIsometryEquiv.trans_apply, this, hV]
  · rw [LinearIsometryEquiv.trans_apply, Submodule.reflection_sub h1, LinearIsometryEquiv.apply_symm_apply]

/-- A scalar diagram, as a function of `Q²`, `(P+Q)²` and `(e·Q)²`. -/
noncomputable def scalar (f : ℝ → ℝ → ℝ → ℝ) (e P Q : E4) : ℝ := f (‖Q‖ ^ 2) (‖P + Q‖ ^ 2) (⟪e, Q⟫ ^ 2)

/-- The same on the axis, with the average of `(e·Q)²`. -/
noncomputable def onAxis (f : ℝ → ℝ → ℝ → ℝ) (a : ℝ) (u : ℝ × ℝ) : ℝ :=
  f (u.1 ^ 2 + u.2 ^ 2) (u.1 ^ 2 + u.2 ^ 2 + a ^ 2 + 2 * a * u.1) (u.2 ^ 2 / 3)

theorem scalar_rotation (f : ℝ → ℝ → ℝ → ℝ) (U : E4 ≃ₗᵢ[ℝ] E4) (e P Q : E4) : scalar f (U e) (U P) (U Q) = scalar f e P Q := by
  simp only [scalar, LinearIsometryEquiv.inner_map_map, LinearIsometryEquiv.norm_map, ← map_add]

theorem tail_sq (Q : E4) : (axis Q).2 ^ 2 = Q 1 ^ 2 + Q 2 ^ 2 + Q 3 ^ 2 := by
  have h1 := norm_axis Q
  have h2 : (axis Q).1 = Q 0 := rfl
  rw [EuclideanSpace.norm_sq_eq, Fin.sum_univ_four, h2] at h1
  simp only [Real.norm_eq_abs, sq_abs] at h1
  linarith

theorem norm_axis_add {a : ℝ} (ha : 0 < a) (Q : E4) : ‖a • e0 + Q‖ ^ 2 = (axis Q).1 ^ 2 + (axis Q).2 ^ 2 + a ^ 2 + 2 * a * (axis Q).1 := by
  rw [norm_add_sq_real, inner_e0, norm_smul, norm_e0, Real.norm_of_nonneg ha.le, ← norm_axis]
  have : (axis Q).1 = Q 0 := rfl
  rw [this]
  ring

/-- What is needed of the scalar function. -/
structure Averaged (f : ℝ → ℝ → ℝ → ℝ) (a : ℝ) : Prop where
  measurable : Measurable fun p : ℝ × ℝ × ℝ => f p.1 p.2.1 p.2.2
  nonneg : ∀ (u : ℝ × ℝ) (v : ℝ), 0 ≤ v → 0 ≤ f (u.1 ^ 2 + u.2 ^ 2) (u.1 ^ 2 + u.2 ^ 2 + a ^ 2 + 2 * a * u.1) v
  affine : ∀ x y v1 v2 v3, f x y v1 + f x y v2 + f x y v3 = 3 * f x y ((v1 + v2 + v3) / 3)

theorem measurable_scalar {f : ℝ → ℝ → ℝ → ℝ} (hf : Measurable fun p : ℝ × ℝ × ℝ => f p.1 p.2.1 p.2.2) (e P : E4) : Measurable (scalar f e P) := by
  have h : Measurable fun Q : E4 => ((‖Q‖ ^ 2, ‖P + Q‖ ^ 2, ⟪e, Q⟫ ^ 2) : ℝ × ℝ × ℝ) := by fun_prop
  exact hf.comp h

theorem measurable_onAxis {f : ℝ → ℝ → ℝ → ℝ} (hf : Measurable fun p : ℝ × ℝ × ℝ => f p.1 p.2.1 p.2.2) (a : ℝ) : Measurable (onAxis f a) := by
  have h : Measurable fun u : ℝ × ℝ => ((u.1 ^ 2 + u.2 ^ 2, u.1 ^ 2 + u.2 ^ 2 + a ^ 2 + 2 * a * u.1, u.2 ^ 2 / 3) : ℝ × ℝ × ℝ) := by fun_prop
  exact hf.comp h

/-- The integral over a ball does not depend on the polarisation, and is the one of the average. -/
theorem ball_pol {f : ℝ → ℝ → ℝ → ℝ} {P e : E4} (hP : P ≠ 0) (he : ‖e‖ = 1) (ho : (⟪e, P⟫ : ℝ) = 0) (hf : Averaged f ‖P‖) {R : ℝ}
    (hi : IntegrableOn (fun Q : E4 => onAxis f ‖P‖ (axis Q)) (Metric.ball 0 R)) :
    IntegrableOn (scalar f e P) (Metric.ball 0 R) ∧
      ∫ Q in Metric.ball (0 : E4) R, scalar f e P Q = ∫ Q in Metric.ball (0 : E4) R, onAxis f ‖P‖ (axis Q) := by
  have hn : 0 < ‖P‖ := norm_pos_iff.2 hP
  have rot : ∀ i : Fin 4, i ≠ 0 → (IntegrableOn (scalar f e P) (Metric.ball 0 R) ↔ IntegrableOn (scalar f (ax i) (‖P‖ • e0)) (Metric.ball 0 R)) ∧
      ∫ Q in Metric.ball (0 : E4) R, scalar f e P Q = ∫ Q in Metric.ball (0 : E4) R, scalar f (ax i) (‖P‖ • e0) Q := fun i hi => by
    obtain ⟨U, h1, h2⟩ := exists_rotation_pol hP he ho hi
    obtain ⟨h3, h4⟩ := ball_rotation U (scalar f e P) R
    have e : (fun Q => scalar f e P (U Q)) = scalar f (ax i) (‖P‖ • e0) := by
      ext Q
      rw [← scalar_rotation f U (ax i), h1, h2]
    rw [h3, h4, e]
    exact ⟨Iff.rfl, rfl⟩
  have val : ∀ (i : Fin 4) (Q : E4), scalar f (ax i) (‖P‖ • e0) Q =
      f ((axis Q).1 ^ 2 + (axis Q).2 ^ 2) ((axis Q).1 ^ 2 + (axis Q).2 ^ 2 + ‖P‖ ^ 2 + 2 * ‖P‖ * (axis Q).1) (Q i ^ 2) := fun i Q => by
    rw [scalar, norm_axis_add hn, inner_ax, norm_axis]
  have sum : ∀ Q : E4, scalar f (ax 1) (‖P‖ • e0) Q + scalar f (ax 2) (‖P‖ • e0) Q + scalar f (ax 3) (‖P‖ • e0) Q = 3 * onAxis f ‖P‖ (axis Q) := fun Q => by
    rw [val, val, val, hf.affine, onAxis, tail_sq]
  have nn : ∀ (i : Fin 4) (Q : E4), 0 ≤ scalar f (ax i) (‖P‖ • e0) Q := fun i Q => by
    rw [val]
    exact hf.nonneg _ _ (by positivity)
  have i1 : IntegrableOn (scalar f (ax 1) (‖P‖ • e0)) (Metric.ball 0 R) := by
    refine Integrable.mono' (hi.const_mul 3) (measurable_scalar hf.measurable _ _).aestronglyMeasurable (.of_forall fun Q => ?_)
    rw [Real.norm_of_nonneg (nn _ _), ← sum]
    linarith [nn 2 Q, nn 3 Q]
  have i0 := ((rot 1 (by decide)).1).2 i1
  have i2 := ((rot 2 (by decide)).1).1 i0
  have i3 := ((rot 3 (by decide)).1).1 i0
  refine ⟨i0, ?_⟩
  have h3 : ∫ Q in Metric.ball (0 : E4) R, (scalar f (ax 1) (‖P‖ • e0) Q + scalar f (ax 2) (‖P‖ • e0) Q + scalar f (ax 3) (‖P‖ • e0) Q) =
      3 * ∫ Q in Metric.ball (0 : E4) R, onAxis f ‖P‖ (axis Q) := by
    simp only [sum]
    rw [integral_const_mul]
  have i12 : IntegrableOn (fun Q => scalar f (ax 1) (‖P‖ • e0) Q + scalar f (ax 2) (‖P‖ • e0) Q) (Metric.ball 0 R) := i1.add i2
  rw [integral_add i12 i3, integral_add i1 i2, ← (rot 1 (by decide)).2, ← (rot 2 (by decide)).2, ← (rot 3 (by decide)).2] at h3
  linarith

theorem ae_ne (P : E4) : ∀ᵐ Q : E4, Q ≠ 0 ∧ P + Q ≠ 0 := by
  have h : ∀ A : E4, ∀ᵐ Q : E4, Q ≠ A := fun A => by simp [ae_iff, measure_singleton]
  filter_upwards [h 0, h (-P)] with Q h1 h2
  exact ⟨h1, fun h3 => h2 (eq_neg_of_add_eq_zero_right h3)⟩

end Qcd.Hyper
