import Verif.Lemmas.GluonFinite

/-! # The quark loop in vacuum: radial integral and its finite part -/

namespace Qcd.GluonRadial
open Set Filter Topology MeasureTheory Hyper
open scoped Real

section
variable {s : ℝ}

/-- The massive line with two sines: `2/π` times the integral over the angle. -/
noncomputable def w2 (s x : ℝ) : ℝ := (sg s x + s)⁻¹

/-- Antiderivative of the lines with the external momentum, in the new variable. -/
noncomputable def FQ (s t : ℝ) : ℝ :=
  Real.log t - (2 / 3 * s - 5 / 3) * t⁻¹ - s / 3 * t⁻¹ ^ 2 + s / 9 * t⁻¹ ^ 3 + (s / 3 - 1) * Real.log (t ^ 2 + s * t - s)
    - (s + 4) * (s - 2) / 3 * La s t

theorem FQ_deriv (hs : 0 < s) {t : ℝ} (ht : 0 < t) (h : 0 < t ^ 2 + s * t - s) :
    HasDerivAt (FQ s) (1 / t + (2 / 3 * s - 5 / 3) / t ^ 2 + 2 / 3 * s / t ^ 3 - s / 3 / t ^ 4
      + ((2 / 3 * s - 2) * t + (8 / 3 - 5 / 3 * s)) / (t ^ 2 + s * t - s)) t := by
  have p2 : HasDerivAt (fun t : ℝ => t ^ 2) (2 * t) t := by simpa using hasDerivAt_pow 2 t
  have i0 : HasDerivAt (fun t : ℝ => t) 1 t := hasDerivAt_id t
  have i1 : HasDerivAt (fun t : ℝ => t⁻¹) (-(t ^ 2)⁻¹) t := hasDerivAt_inv ht.ne'
  have i2 : HasDerivAt (fun t : ℝ => t⁻¹ ^ 2) (2 * t⁻¹ * -(t ^ 2)⁻¹) t := by simpa only [Nat.cast_ofNat, Nat.add_one_sub_one, pow_one] using i1.fun_pow 2
  have i3 : HasDerivAt (fun t : ℝ => t⁻¹ ^ 3) (3 * t⁻¹ ^ 2 * -(t ^ 2)⁻¹) t := by simpa only [Nat.cast_ofNat, Nat.add_one_sub_one, pow_one] using i1.fun_pow 3
  have l0 : HasDerivAt (fun t : ℝ => Real.log t) t⁻¹ t := Real.hasDerivAt_log ht.ne'
  have l2 : HasDerivAt (fun t : ℝ => Real.log (t ^ 2 + s * t - s)) ((2 * t + s * 1) / (t ^ 2 + s * t - s)) t :=
    ((p2.add (i0.const_mul s)).sub_const s).log h.ne'
  have d := ((((l0.sub (i1.const_mul (2 / 3 * s - 5 / 3))).sub (i2.const_mul (s / 3))).add (i3.const_mul (s / 9))).add
    (l2.const_mul (s / 3 - 1))).sub ((La_deriv hs ht h).const_mul ((s + 4) * (s - 2) / 3))
  refine d.congr_deriv ?_
  generalize t ^ 2 + s * t - s = y at *
  have := h.ne'
  field_simp
  ring

theorem quark_fractions (hs : 0 < s) {t : ℝ} (ht : 0 < t) (h : 0 < t ^ 2 + s * t - s) {x : ℝ} (hx : x = (t - 1) * (t + s) / t) :
    (1 / t + (2 / 3 * s - 5 / 3) / t ^ 2 + 2 / 3 * s / t ^ 3 - s / 3 / t ^ 4
      + ((2 / 3 * s - 2) * t + (8 / 3 - 5 / 3 * s)) / (t ^ 2 + s * t - s)) * (t / ((t ^ 2 + s) / t)) =
      x * (1 / 3 * (x / (x + 1)) * ((3 - x * s / (t + s) ^ 2) / (t + s)) + (s / (x + 1) - 1) * (t + s)⁻¹) := by
  have h1 : x + 1 = (t ^ 2 + s * t - s) / t := by rw [hx]; field_simp; ring
  rw [h1, hx]
  have h3 : t + s ≠ 0 := by positivity
  have h4 : t ^ 2 + s ≠ 0 := by positivity
  obtain ⟨y, hy⟩ : ∃ y, y = t ^ 2 + s * t - s := ⟨_, rfl⟩
  rw [← hy] at h ⊢
  have h5 := h.ne'
  clear h1 hx h
  field_simp
  rw [hy]
  ring

theorem sg_quad_pos (hs : 0 < s) {x : ℝ} (hx : -1 < x) : 0 < sg s x ^ 2 + s * sg s x - s := by
  have : sg s x ^ 2 + s * sg s x - s = sg s x * (x + 1) := by linear_combination sg_eq hs x
  rw [this]
  have : 0 < x + 1 := by linarith
  have := sg_pos hs x
  positivity

/-- Antiderivative of the quark loop. -/
noncomputable def KQ (s x : ℝ) : ℝ := -x + Real.log (x + 1) + FQ s (sg s x)

theorem KQ_deriv (hs : 0 < s) {x : ℝ} (hx : -1 < x) :
    HasDerivAt (KQ s) (x * (1 / 3 * (x / (x + 1)) * w1 s x + (s / (x + 1) - 1) * w2 s x - 1 / (x + 1))) x := by
  have h1 := sg_pos hs x
  have h2 := sg_quad_pos hs hx
  have k := (FQ_deriv hs h1 h2).comp x (sg_deriv hs x)
  have i : HasDerivAt (fun x : ℝ => x) 1 x := hasDerivAt_id x
  have h3 : x + 1 ≠ 0 := by linarith
  have l : HasDerivAt (fun x : ℝ => Real.log (x + 1)) (1 / (x + 1)) x := (i.add_const 1).log h3
  refine ((i.neg.add l).add k).congr_deriv ?_
  rw [w_eq hs x, quark_fractions hs h1 h2 (x_eq hs x), w1, w2]
  generalize (sg s x + s)⁻¹ = u
  generalize (3 - x * s / (sg s x + s) ^ 2) / (sg s x + s) = u'
  field_simp
  ring

theorem KQ_zero (hs : 0 < s) : KQ s 0 = 5 / 3 - 8 / 9 * s - (s + 4) * (s - 2) / 3 * La s 1 := by
  rw [KQ, sg_zero hs, FQ]
  norm_num
  ring

/-! ### Removal of the cutoff -/

/-- The cutoff integral without its divergences, as a function of the inverse of the new variable. -/
noncomputable def asymq (s r : ℝ) : ℝ :=
  Real.log (1 + s * r - s * r ^ 2) - 2 / 3 * s * Real.log (1 + (s - 1) * r - s * r ^ 2) - (2 / 3 * s - 5 / 3) * r - s / 3 * r ^ 2 + s / 9 * r ^ 3
    + (s / 3 - 1) * Real.log (1 + s * r - s * r ^ 2)
    - (s + 4) * (s - 2) / 3 * ((Real.log (2 + s * r - rho s * r) - Real.log (2 + s * r + rho s * r)) / rho s)

theorem asymq_eq (hs : 0 < s) {x : ℝ} (hx : 0 < x) : KQ s x + x - 2 / 3 * s * Real.log x = asymq s (sg s x)⁻¹ := by
  have ht := sg_pos hs x
  have hq := sg_eq hs x
  have hxe := x_eq hs x
  have h2 := sg_quad_pos hs (by linarith : -1 < x)
  unfold KQ FQ asymq La
  have hr := rho_lt hs ht h2
  have hr2 := rho_pos hs
  generalize sg s x = t at *
  have l1 : Real.log x = Real.log t + Real.log (1 + (s - 1) * t⁻¹ - s * t⁻¹ ^ 2) := by
    have : x = t * (1 + (s - 1) * t⁻¹ - s * t⁻¹ ^ 2) := by rw [hxe]; field_simp; ring
    rw [this] at hx
    rw [← Real.log_mul ht.ne' (pos_of_mul_pos_right hx ht.le).ne', ← this]
  have l2 : Real.log (x + 1) = Real.log t + Real.log (1 + s * t⁻¹ - s * t⁻¹ ^ 2) := by
    have : x + 1 = t * (1 + s * t⁻¹ - s * t⁻¹ ^ 2) := by rw [hxe]; field_simp; ring
    have h5 : 0 < x + 1 := by linarith
    rw [this] at h5
    rw [← Real.log_mul ht.ne' (pos_of_mul_pos_right h5 ht.le).ne', ← this]
  have l3 : Real.log (t ^ 2 + s * t - s) = 2 * Real.log t + Real.log (1 + s * t⁻¹ - s * t⁻¹ ^ 2) := by
    have : t ^ 2 + s * t - s = t * (x + 1) := by linear_combination hq
    rw [this, Real.log_mul ht.ne' (by positivity), l2]
    ring
  have l5 : Real.log (2 * t + s - rho s) = Real.log t + Real.log (2 + s * t⁻¹ - rho s * t⁻¹) := by
    have : 2 * t + s - rho s = t * (2 + s * t⁻¹ - rho s * t⁻¹) := by field_simp
    rw [this] at hr
    rw [← Real.log_mul ht.ne' (pos_of_mul_pos_right hr ht.le).ne', ← this]
  have l6 : Real.log (2 * t + s + rho s) = Real.log t + Real.log (2 + s * t⁻¹ + rho s * t⁻¹) := by
    rw [← Real.log_mul ht.ne' (by positivity)]
    congr 1
    field_simp
  rw [l1, l2, l3, l5, l6]
  ring

theorem asymq_tendsto (hs : 0 < s) : Tendsto (fun x => KQ s x + x - 2 / 3 * s * Real.log x) atTop (𝓝 0) := by
  have h1 : ContinuousAt (asymq s) 0 := by
    have a1 : (1 : ℝ) + s * 0 - s * 0 ^ 2 ≠ 0 := by norm_num
    have a2 : (1 : ℝ) + (s - 1) * 0 - s * 0 ^ 2 ≠ 0 := by norm_num
    have a4 : (2 : ℝ) + s * 0 - rho s * 0 ≠ 0 := by norm_num
    have a5 : (2 : ℝ) + s * 0 + rho s * 0 ≠ 0 := by norm_num
    unfold asymq
    fun_prop (disch := assumption)
  have h2 : asymq s 0 = 0 := by simp [asymq]
  rw [← h2]
  refine (h1.tendsto.comp (tendsto_inv_atTop_zero.comp (sg_tendsto hs))).congr' ?_
  filter_upwards [eventually_gt_atTop 0] with x hx
  rw [asymq_eq hs hx]
  rfl

/-- The integral over the angle of the quark loop with unit mass: numerators with the external momentum, and the rest. -/
noncomputable def quAngleA (a q : ℝ) : ℝ := (q ^ 2 + 1)⁻¹ * (π / 12 * (q ^ 2 * w1 (a ^ 2) (q ^ 2)) + π / 4 * (a ^ 2 * w2 (a ^ 2) (q ^ 2)))
noncomputable def quAngleB (a q : ℝ) : ℝ := π / 4 * (q ^ 2 + 1)⁻¹ + π / 4 * w2 (a ^ 2) (q ^ 2)

theorem continuous_w2 (hs : 0 < s) : Continuous (w2 s) := by
  have hsg : Continuous (sg s) := continuous_iff_continuousAt.2 fun x => (sg_deriv hs x).continuousAt
  have h0 : ∀ x, sg s x + s ≠ 0 := fun x => by have := sg_pos hs x; positivity
  exact Continuous.inv₀ (by fun_prop) h0

theorem continuous_quAngle {a : ℝ} (ha : 0 < a) : Continuous (quAngleA a) ∧ Continuous (quAngleB a) := by
  have h1 := (continuous_w1 (s := a ^ 2) (by positivity)).comp (continuous_pow 2 (M := ℝ))
  have h2 := (continuous_w2 (s := a ^ 2) (by positivity)).comp (continuous_pow 2 (M := ℝ))
  have h3 : Continuous fun q : ℝ => (q ^ 2 + 1)⁻¹ := Continuous.inv₀ (by fun_prop) fun q => by positivity
  unfold quAngleA quAngleB
  simp only [Function.comp_def] at h1 h2
  constructor <;> fun_prop

theorem quark_radial {a R : ℝ} (ha : 0 < a) (hR : 0 < R) :
    ∫ q in Ioo 0 R, q ^ 3 * (quAngleA a q - quAngleB a q) = π / 8 * (KQ (a ^ 2) (R ^ 2) - KQ (a ^ 2) 0) := by
  have hs : 0 < a ^ 2 := by positivity
  obtain ⟨c1, c2⟩ := continuous_quAngle ha
  have hc : Continuous fun q : ℝ => q ^ 3 * (quAngleA a q - quAngleB a q) := (continuous_pow 3).mul (c1.sub c2)
  rw [← integral_Ioc_eq_integral_Ioo, ← intervalIntegral.integral_of_le hR.le]
  have i2 : ∀ q : ℝ, HasDerivAt (fun q : ℝ => q ^ 2) (2 * q) q := fun q => by simpa using hasDerivAt_pow 2 q
  have d : ∀ q ∈ uIcc 0 R, HasDerivAt (fun q : ℝ => π / 8 * KQ (a ^ 2) (q ^ 2)) (q ^ 3 * (quAngleA a q - quAngleB a q)) q := fun q _ => by
    have k := HasDerivAt.comp (h := fun q : ℝ => q ^ 2) q (KQ_deriv hs (x := q ^ 2) (by nlinarith [sq_nonneg q])) (i2 q)
    refine (k.const_mul (π / 8)).congr_deriv ?_
    have h1 : q ^ 2 + 1 ≠ 0 := by positivity
    rw [quAngleA, quAngleB]
    generalize w1 (a ^ 2) (q ^ 2) = w
    generalize w2 (a ^ 2) (q ^ 2) = w'
    field_simp
    ring
  rw [intervalIntegral.integral_eq_sub_of_hasDerivAt d (hc.intervalIntegrable _ _)]
  norm_num
  ring

end
end Qcd.GluonRadial
