import Verif.Lemmas.GluonRadial
import Verif.Lemmas.VacuumGhost
import Verif.Model.Vacuum
import Mathlib.Tactic.Continuity

/-! # The gluon loop in vacuum: radial integral and its finite part -/

namespace Qcd.GluonRadial
open Set Filter Topology MeasureTheory Hyper
open scoped Real

/-- Antiderivative of the massless line below the external momentum. -/
noncomputable def Klo (s x : ℝ) : ℝ :=
  -x ^ 4 / (4 * s ^ 2) + (1 / s ^ 2 - 7 / s) * x ^ 3 / 3 + (29 - 1 / s ^ 2 + 7 / s) * x ^ 2 / 2 + (3 * s - 26 + 1 / s ^ 2 - 7 / s) * x
    + e1 s * Real.log (x + 1)

/-- Antiderivative of the massless line above the external momentum. -/
noncomputable def Khi (s x : ℝ) : ℝ :=
  3 / 2 * x ^ 2 + 29 * s * x - (29 * s + 7 * s ^ 2 - s ^ 3) * Real.log (x + 1) - s ^ 3 * Real.log x

section
variable {s : ℝ}

theorem Klo_deriv (hs : 0 < s) {x : ℝ} (hx : -1 < x) :
    HasDerivAt (Klo s) (x / (x + 1) * (3 + ((x - s) ^ 2 + 12 * s * x) * ((3 - x / s) / s))) x := by
  have i1 : HasDerivAt (fun x : ℝ => x) 1 x := hasDerivAt_id x
  have i2 : HasDerivAt (fun x : ℝ => x ^ 2) (2 * x) x := by simpa using hasDerivAt_pow 2 x
  have i3 : HasDerivAt (fun x : ℝ => x ^ 3) (3 * x ^ 2) x := by simpa using hasDerivAt_pow 3 x
  have i4 : HasDerivAt (fun x : ℝ => x ^ 4) (4 * x ^ 3) x := by simpa using hasDerivAt_pow 4 x
  have h1 : x + 1 ≠ 0 := by linarith
  have l : HasDerivAt (fun x : ℝ => Real.log (x + 1)) (1 / (x + 1)) x := (i1.add_const 1).log h1
  have d := ((((i4.neg.div_const (4 * s ^ 2)).add ((i3.const_mul (1 / s ^ 2 - 7 / s)).div_const 3)).add
    ((i2.const_mul (29 - 1 / s ^ 2 + 7 / s)).div_const 2)).add (i1.const_mul (3 * s - 26 + 1 / s ^ 2 - 7 / s))).add (l.const_mul (e1 s))
  refine d.congr_deriv ?_
  rw [e1]
  field_simp
  ring

theorem Khi_deriv {x : ℝ} (hx : 0 < x) :
    HasDerivAt (Khi s) (x / (x + 1) * (3 + ((x - s) ^ 2 + 12 * s * x) * ((3 - s / x) / x))) x := by
  have i1 : HasDerivAt (fun x : ℝ => x) 1 x := hasDerivAt_id x
  have i2 : HasDerivAt (fun x : ℝ => x ^ 2) (2 * x) x := by simpa using hasDerivAt_pow 2 x
  have h1 : x + 1 ≠ 0 := by linarith
  have l : HasDerivAt (fun x : ℝ => Real.log (x + 1)) (1 / (x + 1)) x := (i1.add_const 1).log h1
  have d := (((i2.const_mul (3 / 2)).add (i1.const_mul (29 * s))).sub (l.const_mul (29 * s + 7 * s ^ 2 - s ^ 3))).sub
    ((Real.hasDerivAt_log hx.ne').const_mul (s ^ 3))
  refine d.congr_deriv ?_
  field_simp
  ring

/-- The integral over the angle of the gluon loop with unit mass, for the external momentum `a` and the loop momentum `q`. -/
noncomputable def glAngle (a q : ℝ) : ℝ :=
  (6 * (q ^ 2 + 1))⁻¹ * (3 * π / 8 + ((q ^ 2 - a ^ 2) ^ 2 + 12 * a ^ 2 * q ^ 2) * angle a q
    + (8 * q ^ 2 + 12 * a ^ 2 - (q ^ 2 - 1 - a ^ 2) ^ 2 - 12 * a ^ 2 * q ^ 2) * (π / 8 * w1 (a ^ 2) (q ^ 2)))

theorem continuous_w1 (hs : 0 < s) : Continuous (w1 s) := by
  have hsg : Continuous (sg s) := continuous_iff_continuousAt.2 fun x => (sg_deriv hs x).continuousAt
  have h0 : ∀ x, sg s x + s ≠ 0 := fun x => by have := sg_pos hs x; positivity
  unfold w1
  exact Continuous.div (continuous_const.sub (Continuous.div (by fun_prop) (by fun_prop) fun x => pow_ne_zero _ (h0 x))) (by fun_prop) h0

theorem continuous_glAngle {a : ℝ} (ha : 0 < a) : Continuous (glAngle a) := by
  have h1 := continuousOn_angle ha
  have h2 := (continuous_w1 (s := a ^ 2) (by positivity)).comp (continuous_pow 2 (M := ℝ))
  have h3 : Continuous fun q : ℝ => (6 * (q ^ 2 + 1))⁻¹ := Continuous.inv₀ (by fun_prop) fun q => by positivity
  unfold glAngle
  simp only [Function.comp_def] at h2
  fun_prop

theorem gluon_radial {a R : ℝ} (ha : 0 < a) (hR : a < R) :
    ∫ q in Ioo 0 R, q ^ 3 * glAngle a q =
      π / 96 * (Khi (a ^ 2) (R ^ 2) + F1 (a ^ 2) (sg (a ^ 2) (R ^ 2)) - Khi (a ^ 2) (a ^ 2) + Klo (a ^ 2) (a ^ 2) - F1 (a ^ 2) 1) := by
  have hs : 0 < a ^ 2 := by positivity
  have hc : Continuous fun q : ℝ => q ^ 3 * glAngle a q := (continuous_pow 3).mul (continuous_glAngle ha)
  rw [← integral_Ioc_eq_integral_Ioo, ← intervalIntegral.integral_of_le (ha.trans hR).le,
    ← intervalIntegral.integral_add_adjacent_intervals (hc.intervalIntegrable 0 a) (hc.intervalIntegrable a R)]
  have i2 : ∀ q : ℝ, HasDerivAt (fun q : ℝ => q ^ 2) (2 * q) q := fun q => by simpa using hasDerivAt_pow 2 q
  have f1 : ∀ q : ℝ, HasDerivAt (fun q : ℝ => F1 (a ^ 2) (sg (a ^ 2) (q ^ 2))) _ q := fun q =>
    HasDerivAt.comp (h := fun q : ℝ => q ^ 2) q (F1_sg hs (x := q ^ 2) (by nlinarith [sq_nonneg q])) (i2 q)
  have d1 : ∀ q ∈ uIcc 0 a, HasDerivAt (fun q : ℝ => π / 96 * (Klo (a ^ 2) (q ^ 2) + F1 (a ^ 2) (sg (a ^ 2) (q ^ 2)))) (q ^ 3 * glAngle a q) q := fun q hq => by
    rw [uIcc_of_le ha.le] at hq
    have k := HasDerivAt.comp (h := fun q : ℝ => q ^ 2) q (Klo_deriv hs (x := q ^ 2) (by nlinarith [sq_nonneg q])) (i2 q)
    refine ((k.add (f1 q)).const_mul (π / 96)).congr_deriv ?_
    have h1 : q ^ 2 + 1 ≠ 0 := by positivity
    rw [glAngle, angle, if_pos hq.2]
    generalize w1 (a ^ 2) (q ^ 2) = w
    field_simp
    ring
  have d2 : ∀ q ∈ uIcc a R, HasDerivAt (fun q : ℝ => π / 96 * (Khi (a ^ 2) (q ^ 2) + F1 (a ^ 2) (sg (a ^ 2) (q ^ 2)))) (q ^ 3 * glAngle a q) q := fun q hq => by
    rw [uIcc_of_le hR.le] at hq
    have h0 : 0 < q := lt_of_lt_of_le ha hq.1
    have k := HasDerivAt.comp (h := fun q : ℝ => q ^ 2) q (Khi_deriv (s := a ^ 2) (x := q ^ 2) (by positivity)) (i2 q)
    refine ((k.add (f1 q)).const_mul (π / 96)).congr_deriv ?_
    have h1 : q ^ 2 + 1 ≠ 0 := by positivity
    have h2 : angle a q = π / 8 * (3 - a ^ 2 / q ^ 2) / q ^ 2 := by
      rcases hq.1.eq_or_lt with rfl | h
      · simp [angle]
      · simp only [angle, if_neg (not_le.2 h)]
    rw [glAngle, h2]
    generalize w1 (a ^ 2) (q ^ 2) = w
    field_simp
    ring
  rw [intervalIntegral.integral_eq_sub_of_hasDerivAt d1 (hc.intervalIntegrable _ _),
    intervalIntegral.integral_eq_sub_of_hasDerivAt d2 (hc.intervalIntegrable _ _)]
  have z1 : Klo (a ^ 2) (0 ^ 2) = 0 := by simp [Klo]
  have z2 : sg (a ^ 2) (0 ^ 2) = 1 := by rw [← sg_zero hs]; norm_num
  rw [z1, z2]
  ring

/-! ### Removal of the cutoff -/

theorem sg_tendsto (hs : 0 < s) : Tendsto (sg s) atTop atTop := by
  refine tendsto_atTop_mono (f := fun x => (x + (1 - s)) / 2) (fun x => ?_) ?_
  · have := w_pos hs x
    unfold sg
    linarith
  · exact (tendsto_atTop_add_const_right _ _ tendsto_id).atTop_div_const (by norm_num)

/-- The cutoff integral without its divergences, as a function of the inverse of the new variable. -/
noncomputable def asym (s r : ℝ) : ℝ :=
  3 / 2 * (s - 1) ^ 2 - 3 * s + (29 * s - 36) * (s - 1) + 3 / 2 * (s ^ 2 * r ^ 2 - 2 * (s - 1) * s * r) - (29 * s - 36) * s * r
    - (29 * s + 7 * s ^ 2 - s ^ 3) * Real.log (1 + s * r - s * r ^ 2) - (s ^ 3 + 50 * s - 72) * Real.log (1 + (s - 1) * r - s * r ^ 2)
    - e2 s * r - e3 s / 2 * r ^ 2 - e4 s / 3 * r ^ 3 + s ^ 2 / 4 * r ^ 4 + hh s * Real.log (1 + s * r) + g1 s / 2 * Real.log (1 + s * r - s * r ^ 2)
    + (g0 s - g1 s * s / 2) * ((Real.log (2 + s * r - rho s * r) - Real.log (2 + s * r + rho s * r)) / rho s)

theorem asym_eq (hs : 0 < s) {x : ℝ} (hx : 0 < x) :
    Khi s x + F1 s (sg s x) - 36 * x - (50 * s - 72) * Real.log x = asym s (sg s x)⁻¹ := by
  have ht := sg_pos hs x
  have hq := sg_eq hs x
  have hxe := x_eq hs x
  unfold Khi F1 asym La
  have h2 : 0 < sg s x ^ 2 + s * sg s x - s := by
    have : sg s x ^ 2 + s * sg s x - s = sg s x * (x + 1) := by linear_combination hq
    rw [this]
    positivity
  have hr := rho_lt hs ht h2
  have hr2 := rho_pos hs
  generalize sg s x = t at *
  have h3 : 0 < t + s := by positivity
  have h4 : 0 < 2 * t + s + rho s := by positivity
  have l1 : Real.log x = Real.log t + Real.log (1 + (s - 1) * t⁻¹ - s * t⁻¹ ^ 2) := by
    have : x = t * (1 + (s - 1) * t⁻¹ - s * t⁻¹ ^ 2) := by rw [hxe]; field_simp; ring
    rw [this] at hx
    rw [← Real.log_mul ht.ne' (pos_of_mul_pos_right hx ht.le).ne', ← this]
  have l2 : Real.log (x + 1) = Real.log t + Real.log (1 + s * t⁻¹ - s * t⁻¹ ^ 2) := by
    have : x + 1 = t * (1 + s * t⁻¹ - s * t⁻¹ ^ 2) := by rw [hxe]; field_simp; ring
    have h5 : 0 < x + 1 := by linarith
    rw [this] at h5
    rw [← Real.log_mul ht.ne' (pos_of_mul_pos_right h5 ht.le).ne', ← this]
  have l3 : Real.log (t ^ 2 + s * t - s) = 2 * Real.log t + Real.log (1 + s * t⁻¹ - s * t⁻¹ ^ 2) := by
    have : t ^ 2 + s * t - s = t * (x + 1) := by linear_combination hq
    rw [this, Real.log_mul ht.ne' (by positivity), l2]
    ring
  have l4 : Real.log (t + s) = Real.log t + Real.log (1 + s * t⁻¹) := by
    rw [← Real.log_mul ht.ne' (by positivity)]
    congr 1
    field_simp
  have l5 : Real.log (2 * t + s - rho s) = Real.log t + Real.log (2 + s * t⁻¹ - rho s * t⁻¹) := by
    have : 2 * t + s - rho s = t * (2 + s * t⁻¹ - rho s * t⁻¹) := by field_simp
    rw [this] at hr
    rw [← Real.log_mul ht.ne' (pos_of_mul_pos_right hr ht.le).ne', ← this]
  have l6 : Real.log (2 * t + s + rho s) = Real.log t + Real.log (2 + s * t⁻¹ + rho s * t⁻¹) := by
    rw [← Real.log_mul ht.ne' (by positivity)]
    congr 1
    field_simp
  rw [l1, l2, l3, l4, l5, l6]
  generalize Real.log (1 + (s - 1) * t⁻¹ - s * t⁻¹ ^ 2) = L1
  generalize Real.log (1 + s * t⁻¹ - s * t⁻¹ ^ 2) = L2
  generalize Real.log (1 + s * t⁻¹) = L3
  generalize Real.log (2 + s * t⁻¹ - rho s * t⁻¹) = L4
  generalize Real.log (2 + s * t⁻¹ + rho s * t⁻¹) = L5
  generalize Real.log t = L
  have e : e1 s = 29 * s + 7 * s ^ 2 - (hh s + g1 s) + (50 * s - 72) := by
    rw [e1, hh, g1]
    field_simp
    ring
  rw [e]
  generalize e2 s = e2
  generalize e3 s = e3
  generalize e4 s = e4
  generalize hh s = hh
  generalize g1 s = g1
  generalize g0 s = g0
  rw [hxe]
  field_simp
  ring

theorem asym_tendsto (hs : 0 < s) : Tendsto (fun x => Khi s x + F1 s (sg s x) - 36 * x - (50 * s - 72) * Real.log x) atTop
    (𝓝 (3 / 2 * (s - 1) ^ 2 - 3 * s + (29 * s - 36) * (s - 1))) := by
  have h1 : ContinuousAt (asym s) 0 := by
    have a1 : (1 : ℝ) + s * 0 - s * 0 ^ 2 ≠ 0 := by norm_num
    have a2 : (1 : ℝ) + (s - 1) * 0 - s * 0 ^ 2 ≠ 0 := by norm_num
    have a3 : (1 : ℝ) + s * 0 ≠ 0 := by norm_num
    have a4 : (2 : ℝ) + s * 0 - rho s * 0 ≠ 0 := by norm_num
    have a5 : (2 : ℝ) + s * 0 + rho s * 0 ≠ 0 := by norm_num
    unfold asym
    fun_prop (disch := assumption)
  have h2 : asym s 0 = 3 / 2 * (s - 1) ^ 2 - 3 * s + (29 * s - 36) * (s - 1) := by
    simp [asym]
  rw [← h2]
  refine (h1.tendsto.comp (tendsto_inv_atTop_zero.comp (sg_tendsto hs))).congr' ?_
  filter_upwards [eventually_gt_atTop 0] with x hx
  rw [asym_eq hs hx]
  rfl

/-- The finite part of the gluon loop with unit mass. -/
noncomputable def dd (s : ℝ) : ℝ :=
  3 / 2 * (s - 1) ^ 2 - 3 * s + (29 * s - 36) * (s - 1) - Khi s s + Klo s s - F1 s 1

end
end Qcd.GluonRadial
