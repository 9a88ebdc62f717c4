import Verif.Lemmas.CovariantAngle

/-! # Covariant gauges: radial integrals and their finite parts -/

namespace Qcd.GluonRadial
open Set Filter Topology MeasureTheory Hyper
open scoped Real

section
variable {s : ℝ}

/-- Radial integral in the square of the momentum, from antiderivatives below and above the external momentum. -/
theorem radial_split {g lo hi : ℝ → ℝ} {a R : ℝ} (ha : 0 < a) (hR : a < R) (hc : Continuous g)
    (h1 : ∀ q, 0 ≤ q → q ≤ a → ∃ d, HasDerivAt lo d (q ^ 2) ∧ g q = 2 * q * d) (h2 : ∀ q, a ≤ q → ∃ d, HasDerivAt hi d (q ^ 2) ∧ g q = 2 * q * d) :
    ∫ q in Ioo 0 R, g q = hi (R ^ 2) - hi (a ^ 2) + lo (a ^ 2) - lo 0 := by
  rw [← integral_Ioc_eq_integral_Ioo, ← intervalIntegral.integral_of_le (ha.trans hR).le,
    ← intervalIntegral.integral_add_adjacent_intervals (hc.intervalIntegrable 0 a) (hc.intervalIntegrable a R)]
  have i2 : ∀ q : ℝ, HasDerivAt (fun q : ℝ => q ^ 2) (2 * q) q := fun q => by simpa using hasDerivAt_pow 2 q
  have d1 : ∀ q ∈ uIcc 0 a, HasDerivAt (fun q : ℝ => lo (q ^ 2)) (g q) q := fun q hq => by
    rw [uIcc_of_le ha.le] at hq
    obtain ⟨d, hd, e⟩ := h1 q hq.1 hq.2
    exact (HasDerivAt.comp (h := fun q : ℝ => q ^ 2) q hd (i2 q)).congr_deriv (by rw [e]; ring)
  have d2 : ∀ q ∈ uIcc a R, HasDerivAt (fun q : ℝ => hi (q ^ 2)) (g q) q := fun q hq => by
    rw [uIcc_of_le hR.le] at hq
    obtain ⟨d, hd, e⟩ := h2 q hq.1
    exact (HasDerivAt.comp (h := fun q : ℝ => q ^ 2) q hd (i2 q)).congr_deriv (by rw [e]; ring)
  rw [intervalIntegral.integral_eq_sub_of_hasDerivAt d1 (hc.intervalIntegrable _ _),
    intervalIntegral.integral_eq_sub_of_hasDerivAt d2 (hc.intervalIntegrable _ _), zero_pow two_ne_zero]
  ring

/-! ### The longitudinal line of momentum `Q` -/

noncomputable def b1 (s : ℝ) : ℝ := -4 * (s + 1) / s - (s + 1) ^ 2 / s + (s + 1) ^ 3 / s ^ 2
noncomputable def b2 (s : ℝ) : ℝ := 3 * s + (s + 1) ^ 2 - (s + 1) ^ 2 * (s + 2) / (3 * s)
noncomputable def b3 (s : ℝ) : ℝ := (s + 1) ^ 2 / 3
noncomputable def b4 (s : ℝ) : ℝ := -4 * (s + 1) * (1 - 1 / s) + (s + 1) ^ 3 / s - (s + 1) ^ 3 / s ^ 2
noncomputable def b5 (s : ℝ) : ℝ := 4 * (s + 1) ^ 2 - (s + 1) ^ 4 / (3 * s)

/-- Antiderivative of the massive line, in the new variable. -/
noncomputable def WA (s t : ℝ) : ℝ := 3 * t + b1 s * Real.log t - b2 s * t⁻¹ - b3 s / 2 * t⁻¹ ^ 2 + b4 s * Real.log (t + s) - b5 s * (t + s)⁻¹

theorem WA_deriv (hs : 0 < s) {t : ℝ} (ht : 0 < t) :
    HasDerivAt (WA s) (3 + b1 s / t + b2 s / t ^ 2 + b3 s / t ^ 3 + b4 s / (t + s) + b5 s / (t + s) ^ 2) t := by
  have i0 : HasDerivAt (fun t : ℝ => t) 1 t := hasDerivAt_id t
  have i1 : HasDerivAt (fun t : ℝ => t⁻¹) (-(t ^ 2)⁻¹) t := hasDerivAt_inv ht.ne'
  have i2 : HasDerivAt (fun t : ℝ => t⁻¹ ^ 2) (2 * t⁻¹ * -(t ^ 2)⁻¹) t := by simpa only [Nat.cast_ofNat, Nat.add_one_sub_one, pow_one] using i1.fun_pow 2
  have l0 : HasDerivAt (fun t : ℝ => Real.log t) t⁻¹ t := Real.hasDerivAt_log ht.ne'
  have h3 : t + s ≠ 0 := by positivity
  have l1 : HasDerivAt (fun t : ℝ => Real.log (t + s)) (1 / (t + s)) t := (i0.add_const s).log h3
  have j1 := (i0.add_const s).fun_inv h3
  have d := (((((i0.const_mul 3).fun_add (l0.const_mul (b1 s))).fun_sub (i1.const_mul (b2 s))).fun_sub (i2.const_mul (b3 s / 2))).fun_add
    (l1.const_mul (b4 s))).fun_sub (j1.const_mul (b5 s))
  refine d.congr_deriv ?_
  generalize b1 s = b1
  generalize b2 s = b2
  generalize b3 s = b3
  generalize b4 s = b4
  generalize b5 s = b5
  field_simp
  ring

theorem covariant_fractions (hs : 0 < s) {t : ℝ} (ht : 0 < t) {x : ℝ} (hx : x = (t - 1) * (t + s) / t) :
    (3 + b1 s / t + b2 s / t ^ 2 + b3 s / t ^ 3 + b4 s / (t + s) + b5 s / (t + s) ^ 2) * (t / ((t ^ 2 + s) / t)) =
      4 * (1 - (s + 1) * t / (t + s) ^ 2) - 1 + (s + 1) ^ 2 * ((3 - x * s / (t + s) ^ 2) / (t + s)) / 3 := by
  rw [hx, b1, b2, b3, b4, b5]
  have h3 : t + s ≠ 0 := by positivity
  have h4 : t ^ 2 + s ≠ 0 := by positivity
  clear hx
  field_simp
  ring

theorem WA_sg (hs : 0 < s) (x : ℝ) : HasDerivAt (fun x => WA s (sg s x)) (4 * kA s x - 1 + (s + 1) ^ 2 * w1 s x / 3) x := by
  have h1 := sg_pos hs x
  refine ((WA_deriv hs h1).comp x (sg_deriv hs x)).congr_deriv ?_
  rw [w_eq hs x, w1, kA, ← covariant_fractions hs h1 (x_eq hs x)]

/-- Antiderivatives of the massless line. -/
noncomputable def Alo (s x : ℝ) : ℝ := -s * x + x ^ 2 / 6
noncomputable def Ahi (s x : ℝ) : ℝ := -s ^ 2 * Real.log x - s ^ 3 / 3 * x⁻¹

theorem covariant_radial_A {a R : ℝ} (ha : 0 < a) (hR : a < R) :
    ∫ q in Ioo 0 R, q ^ 3 * (aA1 a q - aA2 a q) =
      π / 16 * (Ahi (a ^ 2) (R ^ 2) + WA (a ^ 2) (sg (a ^ 2) (R ^ 2)) - Ahi (a ^ 2) (a ^ 2) + Alo (a ^ 2) (a ^ 2) - WA (a ^ 2) 1) := by
  have hs : 0 < a ^ 2 := by positivity
  obtain ⟨c1, c2, -⟩ := continuous_angles ha
  have hc : Continuous fun q => q ^ 3 * (aA1 a q - aA2 a q) := by
    simp only [mul_sub]
    exact c1.sub c2
  rw [radial_split ha hR hc (lo := fun x => π / 16 * (Alo (a ^ 2) x + WA (a ^ 2) (sg (a ^ 2) x)))
    (hi := fun x => π / 16 * (Ahi (a ^ 2) x + WA (a ^ 2) (sg (a ^ 2) x))) (fun q h0 hq => ?_) (fun q hq => ?_), sg_zero hs]
  · have : Alo (a ^ 2) 0 = 0 := by simp [Alo]
    rw [this]
    ring
  · have i1 : HasDerivAt (fun x : ℝ => x) 1 (q ^ 2) := hasDerivAt_id _
    have i2 : HasDerivAt (fun x : ℝ => x ^ 2) (2 * q ^ 2) (q ^ 2) := by simpa using hasDerivAt_pow 2 (q ^ 2)
    refine ⟨_, (((i1.const_mul (-a ^ 2)).fun_add (i2.div_const 6)).fun_add (WA_sg hs (q ^ 2))).const_mul (π / 16), ?_⟩
    rw [mul_sub, aA1, aA2, cube_inv, cube_inv, angle, if_pos hq]
    generalize w1 (a ^ 2) (q ^ 2) = w
    generalize kA (a ^ 2) (q ^ 2) = k
    field_simp
    ring
  · have h0 : 0 < q := lt_of_lt_of_le ha hq
    have h1 : q ^ 2 ≠ 0 := by positivity
    refine ⟨_, ((((Real.hasDerivAt_log h1).const_mul (-(a ^ 2) ^ 2)).fun_sub ((hasDerivAt_inv h1).const_mul ((a ^ 2) ^ 3 / 3))).fun_add
      (WA_sg hs (q ^ 2))).const_mul (π / 16), ?_⟩
    have h2 : angle a q = π / 8 * (3 - a ^ 2 / q ^ 2) / q ^ 2 := by
      rcases hq.eq_or_lt with rfl | h
      · simp [angle]
      · simp only [angle, if_neg (not_le.2 h)]
    rw [mul_sub, aA1, aA2, cube_inv, cube_inv, h2]
    generalize w1 (a ^ 2) (q ^ 2) = w
    generalize kA (a ^ 2) (q ^ 2) = k
    field_simp
    ring

/-! ### The longitudinal line of momentum `P + Q` -/

noncomputable def Blo (s x : ℝ) : ℝ :=
  -x ^ 3 / (3 * s ^ 2) + (1 / s ^ 2 - 2 / s) * x ^ 2 / 2 + (3 + 2 / s - 1 / s ^ 2) * x - (3 + 2 / s - 1 / s ^ 2) * Real.log (x + 1)
noncomputable def Bhi (s x : ℝ) : ℝ := 3 * x - (3 + 2 * s - s ^ 2) * Real.log (x + 1) - s ^ 2 * Real.log x

theorem covariant_radial_B {a R : ℝ} (ha : 0 < a) (hR : a < R) :
    ∫ q in Ioo 0 R, q ^ 3 * (aB1 a q - aB2 a q) = π / 16 * (Bhi (a ^ 2) (R ^ 2) - Bhi (a ^ 2) (a ^ 2) + Blo (a ^ 2) (a ^ 2)) := by
  obtain ⟨-, -, c1, c2, -⟩ := continuous_angles ha
  have hc : Continuous fun q => q ^ 3 * (aB1 a q - aB2 a q) := by
    simp only [mul_sub]
    exact c1.sub c2
  rw [radial_split ha hR hc (lo := fun x => π / 16 * Blo (a ^ 2) x) (hi := fun x => π / 16 * Bhi (a ^ 2) x) (fun q h0 hq => ?_) (fun q hq => ?_)]
  · have : Blo (a ^ 2) 0 = 0 := by simp [Blo]
    rw [this]
    ring
  · have i1 : HasDerivAt (fun x : ℝ => x) 1 (q ^ 2) := hasDerivAt_id _
    have i2 : HasDerivAt (fun x : ℝ => x ^ 2) (2 * q ^ 2) (q ^ 2) := by simpa using hasDerivAt_pow 2 (q ^ 2)
    have i3 : HasDerivAt (fun x : ℝ => x ^ 3) (3 * (q ^ 2) ^ 2) (q ^ 2) := by simpa using hasDerivAt_pow 3 (q ^ 2)
    have h1 : q ^ 2 + 1 ≠ 0 := by positivity
    have l := (i1.add_const 1).log h1
    refine ⟨_, ((((i3.fun_neg.div_const (3 * (a ^ 2) ^ 2)).fun_add ((i2.const_mul (1 / (a ^ 2) ^ 2 - 2 / a ^ 2)).div_const 2)).fun_add
      (i1.const_mul (3 + 2 / a ^ 2 - 1 / (a ^ 2) ^ 2))).fun_sub (l.const_mul (3 + 2 / a ^ 2 - 1 / (a ^ 2) ^ 2))).const_mul (π / 16), ?_⟩
    rw [aB1, aB2, mx_low h0 hq, abs_of_nonpos (by nlinarith)]
    field_simp
    ring
  · have h0 : 0 < q := lt_of_lt_of_le ha hq
    have i1 : HasDerivAt (fun x : ℝ => x) 1 (q ^ 2) := hasDerivAt_id _
    have h1 : q ^ 2 + 1 ≠ 0 := by positivity
    have h2 : q ^ 2 ≠ 0 := by positivity
    have l := (i1.add_const 1).log h1
    refine ⟨_, (((i1.const_mul 3).fun_sub (l.const_mul (3 + 2 * a ^ 2 - (a ^ 2) ^ 2))).fun_sub ((Real.hasDerivAt_log h2).const_mul ((a ^ 2) ^ 2))).const_mul
      (π / 16), ?_⟩
    rw [aB1, aB2, mx_high ha.le hq, abs_of_nonneg (by nlinarith)]
    field_simp
    ring

/-! ### Both lines, tadpole, ghost -/

theorem covariant_radial_C {a R : ℝ} (ha : 0 < a) (hR : a < R) : ∫ q in Ioo 0 R, q ^ 3 * aC a q = π / 16 * (2 * a ^ 2 - a ^ 4 * (R ^ 2)⁻¹) := by
  have hc := (continuous_angles ha).2.2.2.2.1
  rw [radial_split ha hR hc (lo := fun x => π / 16 * x) (hi := fun x => π / 16 * (-(a ^ 4 * x⁻¹))) (fun q h0 hq => ?_) (fun q hq => ?_)]
  · field_simp
    ring
  · refine ⟨_, (hasDerivAt_id _).const_mul (π / 16), ?_⟩
    rw [aC, cube_inv, mx_low h0 hq]
    field_simp
    ring
  · have h0 : 0 < q := lt_of_lt_of_le ha hq
    have h2 : q ^ 2 ≠ 0 := by positivity
    refine ⟨_, (((hasDerivAt_inv h2).const_mul (a ^ 4)).fun_neg).const_mul (π / 16), ?_⟩
    rw [aC, cube_inv, mx_high ha.le hq]
    field_simp
    norm_num

theorem covariant_radial_T {a R : ℝ} (ha : 0 < a) (hR : a < R) : ∫ q in Ioo 0 R, q ^ 3 * (aT1 a q - aT2 a q) = 3 * π / 16 * R ^ 2 := by
  have e : ∀ q, q ^ 3 * (aT1 a q - aT2 a q) = 3 * π / 8 * q := fun q => by
    rw [mul_sub, aT1, aT2, cube_inv, cube_inv]
    ring
  simp only [e]
  rw [radial_split ha hR (by fun_prop) (lo := fun x => 3 * π / 16 * x) (hi := fun x => 3 * π / 16 * x) (fun q h0 hq => ?_) (fun q hq => ?_)]
  · ring
  · exact ⟨_, (hasDerivAt_id _).const_mul _, by ring⟩
  · exact ⟨_, (hasDerivAt_id _).const_mul _, by ring⟩

theorem covariant_radial_G {a R : ℝ} (ha : 0 < a) (hR : a < R) :
    ∫ q in Ioo 0 R, q ^ 3 * (aG1 a q - aG2 a q) =
      π / 4 * (3 / 2 * a ^ 2 - a ^ 2 * Real.log (R ^ 2) + a ^ 2 * Real.log (a ^ 2) - a ^ 4 * (R ^ 2)⁻¹) := by
  obtain ⟨-, -, -, -, -, -, -, c1, c2⟩ := continuous_angles ha
  have hc : Continuous fun q => q ^ 3 * (aG1 a q - aG2 a q) := by
    simp only [mul_sub]
    exact c1.sub c2
  rw [radial_split ha hR hc (lo := fun x => π / 4 * (x - x ^ 2 / (2 * a ^ 2))) (hi := fun x => π / 4 * (-(a ^ 2 * Real.log x) - a ^ 4 * x⁻¹)) (fun q h0 hq => ?_)
    (fun q hq => ?_)]
  · field_simp
    ring
  · have i2 : HasDerivAt (fun x : ℝ => x ^ 2) (2 * q ^ 2) (q ^ 2) := by simpa using hasDerivAt_pow 2 (q ^ 2)
    refine ⟨_, ((hasDerivAt_id _).fun_sub (i2.div_const (2 * a ^ 2))).const_mul (π / 4), ?_⟩
    rw [mul_sub, aG1, aG2, cube_inv, mx_low h0 hq]
    field_simp
    ring
  · have h0 : 0 < q := lt_of_lt_of_le ha hq
    have h2 : q ^ 2 ≠ 0 := by positivity
    refine ⟨_, (((Real.hasDerivAt_log h2).const_mul (a ^ 2)).fun_neg.fun_sub ((hasDerivAt_inv h2).const_mul (a ^ 4))).const_mul (π / 4), ?_⟩
    rw [mul_sub, aG1, aG2, cube_inv, mx_high ha.le hq]
    field_simp
    ring

/-! ### Removal of the cutoff -/

noncomputable def asymA (s r : ℝ) : ℝ :=
  3 * (1 - s) + 3 * s * r - b2 s * r - b3 s / 2 * r ^ 2 + b4 s * Real.log (1 + s * r) - b5 s * (r * (1 + s * r)⁻¹)
    + (2 * s + 3 - s ^ 2) * Real.log (1 + (s - 1) * r - s * r ^ 2) - s ^ 3 / 3 * (r * (1 + (s - 1) * r - s * r ^ 2)⁻¹)

theorem asymA_eq (hs : 0 < s) {x : ℝ} (hx : 0 < x) :
    Ahi s x + WA s (sg s x) - 3 * x + (2 * s + 3) * Real.log x = asymA s (sg s x)⁻¹ := by
  have ht := sg_pos hs x
  have hxe := x_eq hs x
  unfold Ahi WA asymA
  generalize sg s x = t at *
  have hm : x = t * (1 + (s - 1) * t⁻¹ - s * t⁻¹ ^ 2) := by rw [hxe]; field_simp; ring
  have hp : 0 < 1 + (s - 1) * t⁻¹ - s * t⁻¹ ^ 2 := by
    rw [hm] at hx
    exact pos_of_mul_pos_right hx ht.le
  have l1 : Real.log x = Real.log t + Real.log (1 + (s - 1) * t⁻¹ - s * t⁻¹ ^ 2) := by
    rw [← Real.log_mul ht.ne' hp.ne', ← hm]
  have l4 : Real.log (t + s) = Real.log t + Real.log (1 + s * t⁻¹) := by
    rw [← Real.log_mul ht.ne' (by positivity)]
    congr 1
    field_simp
  have v1 : x⁻¹ = t⁻¹ * (1 + (s - 1) * t⁻¹ - s * t⁻¹ ^ 2)⁻¹ := by rw [← mul_inv, ← hm]
  have v4 : (t + s)⁻¹ = t⁻¹ * (1 + s * t⁻¹)⁻¹ := by
    rw [← mul_inv]
    congr 1
    field_simp
  have e : b1 s = s ^ 2 - 2 * s - 3 - b4 s := by
    rw [b1, b4]
    field_simp
    ring
  have x3 : 3 * x = 3 * t + 3 * (s - 1) - 3 * s * t⁻¹ := by rw [hxe]; field_simp; ring
  rw [l1, l4, v1, v4, e, x3]
  ring

theorem asymA_tendsto (hs : 0 < s) : Tendsto (fun x => Ahi s x + WA s (sg s x) - 3 * x + (2 * s + 3) * Real.log x) atTop (𝓝 (3 * (1 - s))) := by
  have h1 : ContinuousAt (asymA s) 0 := by
    have a2 : (1 : ℝ) + (s - 1) * 0 - s * 0 ^ 2 ≠ 0 := by norm_num
    have a3 : (1 : ℝ) + s * 0 ≠ 0 := by norm_num
    unfold asymA
    fun_prop (disch := assumption)
  have h2 : asymA s 0 = 3 * (1 - s) := by simp [asymA]
  rw [← h2]
  refine (h1.tendsto.comp (tendsto_inv_atTop_zero.comp (sg_tendsto hs))).congr' ?_
  filter_upwards [eventually_gt_atTop 0] with x hx
  rw [asymA_eq hs hx]
  rfl

theorem log_succ_tendsto : Tendsto (fun x : ℝ => Real.log x - Real.log (x + 1)) atTop (𝓝 0) := by
  have h3 : Tendsto (fun x : ℝ => 1 - 1 / (x + 1)) atTop (𝓝 (1 - 0)) :=
    tendsto_const_nhds.sub (Tendsto.div_atTop tendsto_const_nhds (tendsto_atTop_add_const_right _ _ tendsto_id))
  have h4 := (Real.continuousAt_log (by norm_num : (1 - 0 : ℝ) ≠ 0)).tendsto.comp h3
  rw [sub_zero, Real.log_one] at h4
  refine h4.congr' ?_
  filter_upwards [eventually_gt_atTop 0] with x hx
  have h5 : x + 1 ≠ 0 := by positivity
  rw [Function.comp_apply, ← Real.log_div hx.ne' h5]
  congr 1
  field_simp
  ring

theorem asymB_tendsto (s : ℝ) : Tendsto (fun x => Bhi s x - 3 * x + (2 * s + 3) * Real.log x) atTop (𝓝 0) := by
  have h := log_succ_tendsto.const_mul (3 + 2 * s - s ^ 2)
  rw [mul_zero] at h
  refine h.congr fun x => ?_
  rw [Bhi]
  ring

/-- The finite parts with unit mass. -/
noncomputable def fA (s : ℝ) : ℝ := 3 * (1 - s) - Ahi s s + Alo s s - WA s 1
noncomputable def fB (s : ℝ) : ℝ := -Bhi s s + Blo s s

theorem fA_eq (hs : 0 < s) : fA s = 4 * s + 5 / 2 - s⁻¹ + (-s ^ 2 + 2 * s - 2 * s⁻¹ + s⁻¹ ^ 2) * Real.log (s + 1) + s ^ 2 * Real.log s := by
  simp only [fA, Ahi, Alo, WA, b1, b2, b3, b4, b5, Real.log_one]
  rw [add_comm 1 s]
  have : s + 1 ≠ 0 := by positivity
  generalize Real.log (s + 1) = L
  field_simp
  ring

theorem fB_eq (hs : 0 < s) : fB s = fA s - 16 / 3 * s := by
  rw [fA_eq hs]
  simp only [fB, Bhi, Blo]
  generalize Real.log (s + 1) = L
  field_simp
  ring

/-- The derivative of the finite part is the gauge part of the vacuum gluon function. -/
theorem fA_deriv (hs : 0 < s) : ∃ d, HasDerivAt fA d s ∧ gluon.f_xi s = 1 / 3 + 1 / (4 * s) - d / 12 := by
  have i1 : HasDerivAt (fun x : ℝ => x) 1 s := hasDerivAt_id s
  have h1 : s + 1 ≠ 0 := by positivity
  have l0 : HasDerivAt (fun x : ℝ => Real.log x) s⁻¹ s := Real.hasDerivAt_log hs.ne'
  have l1 : HasDerivAt (fun x : ℝ => Real.log (x + 1)) (1 / (s + 1)) s := (i1.add_const 1).log h1
  have q2 : HasDerivAt (fun x : ℝ => x ^ 2) (2 * s) s := by simpa using hasDerivAt_pow 2 s
  have v1 : HasDerivAt (fun x : ℝ => x⁻¹) (-(s ^ 2)⁻¹) s := hasDerivAt_inv hs.ne'
  have v2 : HasDerivAt (fun x : ℝ => x⁻¹ ^ 2) (2 * s⁻¹ * -(s ^ 2)⁻¹) s := by simpa only [Nat.cast_ofNat, Nat.add_one_sub_one, pow_one] using v1.fun_pow 2
  have key := ((((i1.const_mul 4).add_const (5 / 2)).fun_sub v1).fun_add
    ((((q2.fun_neg.fun_add (i1.const_mul 2)).fun_sub (v1.const_mul 2)).fun_add v2).fun_mul l1)).fun_add (q2.fun_mul l0)
  refine ⟨_, key.congr_of_eventuallyEq ?_, ?_⟩
  · filter_upwards [lt_mem_nhds hs] with x hx
    exact fA_eq hx
  · simp only [gluon.f_xi, gluon.f_xi_sep, ln_real, ofR_real]
    generalize Real.log (s + 1) = A
    generalize Real.log s = B
    field_simp
    ring

end
end Qcd.GluonRadial
