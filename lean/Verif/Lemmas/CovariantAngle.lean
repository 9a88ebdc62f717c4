import Verif.Lemmas.VacuumQuark

/-! # Covariant gauges: the longitudinal lines, integrated over the angle -/

namespace Qcd.Hyper
open MeasureTheory Set Spec Matrix GluonRadial
open scoped Real RealInnerProductSpace

/-! ### The square of a massless line -/

theorem sin2_sq_small {r : ℝ} (h0 : 0 ≤ r) (h1 : r < 1) :
    ∫ t in (0 : ℝ)..π, Real.sin t ^ 2 * (1 + r ^ 2 + 2 * r * Real.cos t)⁻¹ ^ 2 = π / 2 / (1 - r ^ 2) := by
  rcases h0.eq_or_lt with rfl | h
  · have : ∀ t : ℝ, Real.sin t ^ 2 * (1 + (0 : ℝ) ^ 2 + 2 * 0 * Real.cos t)⁻¹ ^ 2 = Real.sin t ^ 2 := fun t => by norm_num
    simp only [this]
    rw [sin2_int]
    norm_num
  have hr : 1 - r ^ 2 ≠ 0 := by nlinarith
  have c : Continuous fun t => (1 + r ^ 2 + 2 * r * Real.cos t)⁻¹ := Continuous.inv₀ (by fun_prop) fun t => (cos_den_pos h0 h1 t).ne'
  have d : ∀ t ∈ uIcc (0 : ℝ) π, HasDerivAt (fun t => 1 / (2 * r) * (Real.sin t * (1 + r ^ 2 + 2 * r * Real.cos t)⁻¹))
      (Real.sin t ^ 2 * (1 + r ^ 2 + 2 * r * Real.cos t)⁻¹ ^ 2 + (1 / (4 * r ^ 2) - (1 + r ^ 2) / (4 * r ^ 2) * (1 + r ^ 2 + 2 * r * Real.cos t)⁻¹)) t := fun t _ => by
    have hq := cos_den_pos h0 h1 t
    have h2 : HasDerivAt (fun t : ℝ => 1 + r ^ 2 + 2 * r * Real.cos t) (2 * r * -Real.sin t) t := ((Real.hasDerivAt_cos t).const_mul _).const_add _
    refine (((Real.hasDerivAt_sin t).fun_mul (h2.fun_inv hq.ne')).const_mul (1 / (2 * r))).congr_deriv ?_
    generalize Real.sin t = s
    generalize Real.cos t = c at *
    obtain ⟨d, hd⟩ : ∃ d, d = 1 + r ^ 2 + 2 * r * c := ⟨_, rfl⟩
    have hd0 : d ≠ 0 := hd ▸ hq.ne'
    rw [← hd]
    obtain rfl : c = (d - 1 - r ^ 2) / (2 * r) := by rw [hd]; field_simp; ring
    field_simp
    ring
  have h3 := intervalIntegral.integral_eq_sub_of_hasDerivAt d (Continuous.intervalIntegrable (by fun_prop) _ _)
  rw [intervalIntegral.integral_add (Continuous.intervalIntegrable (by fun_prop) _ _) (Continuous.intervalIntegrable (by fun_prop) _ _),
    intervalIntegral.integral_sub (Continuous.intervalIntegrable (by fun_prop) _ _) (Continuous.intervalIntegrable (by fun_prop) _ _),
    intervalIntegral.integral_const_mul, intervalIntegral.integral_const, poisson h0 h1] at h3
  simp only [Real.sin_pi, Real.sin_zero, zero_mul, mul_zero, sub_zero, smul_eq_mul] at h3
  rw [eq_neg_of_add_eq_zero_left h3]
  field_simp
  ring

theorem sin4_sq_small {r : ℝ} (h0 : 0 ≤ r) (h1 : r < 1) :
    ∫ t in (0 : ℝ)..π, Real.sin t ^ 4 * (1 + r ^ 2 + 2 * r * Real.cos t)⁻¹ ^ 2 = 3 * π / 8 := by
  rcases h0.eq_or_lt with rfl | h
  · have : ∀ t : ℝ, Real.sin t ^ 4 * (1 + (0 : ℝ) ^ 2 + 2 * 0 * Real.cos t)⁻¹ ^ 2 = Real.sin t ^ 4 := fun t => by norm_num
    simp only [this]
    exact sin4_int
  have c : Continuous fun t => (1 + r ^ 2 + 2 * r * Real.cos t)⁻¹ := Continuous.inv₀ (by fun_prop) fun t => (cos_den_pos h0 h1 t).ne'
  have d : ∀ t ∈ uIcc (0 : ℝ) π, HasDerivAt (fun t => 1 / (2 * r) * (Real.sin t ^ 3 * (1 + r ^ 2 + 2 * r * Real.cos t)⁻¹))
      (Real.sin t ^ 4 * (1 + r ^ 2 + 2 * r * Real.cos t)⁻¹ ^ 2 + (3 / (4 * r ^ 2) * Real.sin t ^ 2
        - 3 * (1 + r ^ 2) / (4 * r ^ 2) * (Real.sin t ^ 2 * (1 + r ^ 2 + 2 * r * Real.cos t)⁻¹))) t := fun t _ => by
    have hq := cos_den_pos h0 h1 t
    have h2 : HasDerivAt (fun t : ℝ => 1 + r ^ 2 + 2 * r * Real.cos t) (2 * r * -Real.sin t) t := ((Real.hasDerivAt_cos t).const_mul _).const_add _
    refine ((((Real.hasDerivAt_sin t).fun_pow 3).fun_mul (h2.fun_inv hq.ne')).const_mul (1 / (2 * r))).congr_deriv ?_
    generalize Real.sin t = s
    generalize Real.cos t = c at *
    obtain ⟨d, hd⟩ : ∃ d, d = 1 + r ^ 2 + 2 * r * c := ⟨_, rfl⟩
    have hd0 : d ≠ 0 := hd ▸ hq.ne'
    rw [← hd]
    obtain rfl : c = (d - 1 - r ^ 2) / (2 * r) := by rw [hd]; field_simp; ring
    norm_num
    field_simp
    ring
  have h3 := intervalIntegral.integral_eq_sub_of_hasDerivAt d (Continuous.intervalIntegrable (by fun_prop) _ _)
  rw [intervalIntegral.integral_add (Continuous.intervalIntegrable (by fun_prop) _ _) (Continuous.intervalIntegrable (by fun_prop) _ _),
    intervalIntegral.integral_sub (Continuous.intervalIntegrable (by fun_prop) _ _) (Continuous.intervalIntegrable (by fun_prop) _ _),
    intervalIntegral.integral_const_mul, intervalIntegral.integral_const_mul, sin2_small h0 h1, sin2_int] at h3
  simp only [Real.sin_pi, Real.sin_zero, zero_pow three_ne_zero, zero_mul, mul_zero, sub_zero] at h3
  rw [eq_neg_of_add_eq_zero_left h3]
  field_simp
  ring

/-- The larger of the two momenta squared. -/
noncomputable def mx (a q : ℝ) : ℝ := max (a ^ 2) (q ^ 2)

theorem mx_pos {a : ℝ} (ha : 0 < a) (q : ℝ) : 0 < mx a q := lt_of_lt_of_le (by positivity) (le_max_left _ _)

theorem continuous_mx (a : ℝ) : Continuous (mx a) := by unfold mx; fun_prop

theorem mx_low {a q : ℝ} (hq : 0 ≤ q) (h : q ≤ a) : mx a q = a ^ 2 := max_eq_left (pow_le_pow_left₀ hq h 2)

theorem mx_high {a q : ℝ} (ha : 0 ≤ a) (h : a ≤ q) : mx a q = q ^ 2 := max_eq_right (pow_le_pow_left₀ ha h 2)

theorem small_den {a q : ℝ} (ha : 0 < a) (hq : 0 < q) (hne : q ≠ a) : ∃ r : ℝ, 0 ≤ r ∧ r < 1 ∧
    (∀ c, q ^ 2 + a ^ 2 + 2 * a * q * c = mx a q * (1 + r ^ 2 + 2 * r * c)) ∧ mx a q * (1 - r ^ 2) = |q ^ 2 - a ^ 2| := by
  rcases lt_or_gt_of_ne hne with h | h
  · refine ⟨q / a, by positivity, (div_lt_one ha).2 h, fun c => ?_, ?_⟩
    · rw [mx_low hq.le h.le]
      field_simp
      ring
    · rw [mx_low hq.le h.le, abs_of_nonpos (by nlinarith)]
      field_simp
      ring
  · refine ⟨a / q, by positivity, (div_lt_one hq).2 h, fun c => ?_, ?_⟩
    · rw [mx_high ha.le h.le]
      field_simp
    · rw [mx_high ha.le h.le, abs_of_nonneg (by nlinarith)]
      field_simp

theorem sin2_den {a q : ℝ} (ha : 0 < a) (hq : 0 < q) (hne : q ≠ a) :
    ∫ t in (0 : ℝ)..π, Real.sin t ^ 2 * (q ^ 2 + a ^ 2 + 2 * a * q * Real.cos t)⁻¹ = π / 2 / mx a q := by
  obtain ⟨r, h0, h1, h2, -⟩ := small_den ha hq hne
  have e : ∀ t : ℝ, Real.sin t ^ 2 * (q ^ 2 + a ^ 2 + 2 * a * q * Real.cos t)⁻¹ =
      (mx a q)⁻¹ * (Real.sin t ^ 2 * (1 + r ^ 2 + 2 * r * Real.cos t)⁻¹) := fun t => by
    rw [h2, mul_inv]
    ring
  simp only [e]
  rw [intervalIntegral.integral_const_mul, sin2_small h0 h1]
  ring

theorem sin2_sq_den {a q : ℝ} (ha : 0 < a) (hq : 0 < q) (hne : q ≠ a) :
    ∫ t in (0 : ℝ)..π, Real.sin t ^ 2 * (q ^ 2 + a ^ 2 + 2 * a * q * Real.cos t)⁻¹ ^ 2 = π / 2 / (mx a q * |q ^ 2 - a ^ 2|) := by
  obtain ⟨r, h0, h1, h2, h3⟩ := small_den ha hq hne
  have e : ∀ t : ℝ, Real.sin t ^ 2 * (q ^ 2 + a ^ 2 + 2 * a * q * Real.cos t)⁻¹ ^ 2 =
      (mx a q)⁻¹ ^ 2 * (Real.sin t ^ 2 * (1 + r ^ 2 + 2 * r * Real.cos t)⁻¹ ^ 2) := fun t => by
    rw [h2, mul_inv]
    ring
  simp only [e]
  have := (mx_pos ha q).ne'
  have hr : 1 - r ^ 2 ≠ 0 := by nlinarith
  rw [intervalIntegral.integral_const_mul, sin2_sq_small h0 h1, ← h3]
  field_simp

theorem sin4_sq_den {a q : ℝ} (ha : 0 < a) (hq : 0 < q) (hne : q ≠ a) :
    ∫ t in (0 : ℝ)..π, Real.sin t ^ 4 * (q ^ 2 + a ^ 2 + 2 * a * q * Real.cos t)⁻¹ ^ 2 = 3 * π / 8 / mx a q ^ 2 := by
  obtain ⟨r, h0, h1, h2, h3⟩ := small_den ha hq hne
  have e : ∀ t : ℝ, Real.sin t ^ 4 * (q ^ 2 + a ^ 2 + 2 * a * q * Real.cos t)⁻¹ ^ 2 =
      (mx a q)⁻¹ ^ 2 * (Real.sin t ^ 4 * (1 + r ^ 2 + 2 * r * Real.cos t)⁻¹ ^ 2) := fun t => by
    rw [h2, mul_inv]
    ring
  simp only [e]
  rw [intervalIntegral.integral_const_mul, sin4_sq_small h0 h1]
  ring

/-! ### The diagrams, as functions of the scalar products -/

/-- The longitudinal line of momentum `Q`. -/
noncomputable def cA1 (M s x y _v : ℝ) : ℝ := (y - s) ^ 2 / ((y + M) * x ^ 2)
noncomputable def cA2 (M s x y v : ℝ) : ℝ := (y - s) ^ 2 * v / (y * (y + M) * x ^ 2)

/-- The longitudinal line of momentum `P + Q`. -/
noncomputable def cB1 (M s x y _v : ℝ) : ℝ := (x - s) ^ 2 / ((x + M) * y ^ 2)
noncomputable def cB2 (M s x y v : ℝ) : ℝ := (x - s) ^ 2 * v / (x * (x + M) * y ^ 2)

/-- Both. -/
noncomputable def cC (_M s x y v : ℝ) : ℝ := s ^ 2 * v / (x ^ 2 * y ^ 2)

/-- The tadpole. -/
noncomputable def cT1 (_M _s x _y _v : ℝ) : ℝ := x⁻¹
noncomputable def cT2 (_M _s x _y v : ℝ) : ℝ := v / x ^ 2

/-- The ghost. -/
noncomputable def cG1 (_M s x y _v : ℝ) : ℝ := (y - s) ^ 2 / (x ^ 2 * y)
noncomputable def cG2 (_M _s _x y _v : ℝ) : ℝ := y⁻¹

/-- Their integrals over the angle, with unit mass. -/
noncomputable def kA (s x : ℝ) : ℝ := 1 - (s + 1) * sg s x / (sg s x + s) ^ 2
noncomputable def aA1 (a q : ℝ) : ℝ := (q ^ 2)⁻¹ * (π / 2 * kA (a ^ 2) (q ^ 2))
noncomputable def aA2 (a q : ℝ) : ℝ := (q ^ 2)⁻¹ * ((3 * π / 8 + a ^ 4 * angle a q - (a ^ 2 + 1) ^ 2 * (π / 8 * w1 (a ^ 2) (q ^ 2))) / 3)
noncomputable def aB1 (a q : ℝ) : ℝ := π / 2 * |q ^ 2 - a ^ 2| * ((q ^ 2 + 1)⁻¹ * (mx a q)⁻¹)
noncomputable def aB2 (a q : ℝ) : ℝ := π / 8 * (q ^ 2 - a ^ 2) ^ 2 * ((q ^ 2 + 1)⁻¹ * (mx a q)⁻¹ ^ 2)
noncomputable def aC (a q : ℝ) : ℝ := (q ^ 2)⁻¹ * (π / 8 * (a ^ 4 * (mx a q)⁻¹ ^ 2))
noncomputable def aT1 (_a q : ℝ) : ℝ := (q ^ 2)⁻¹ * (π / 2)
noncomputable def aT2 (_a q : ℝ) : ℝ := (q ^ 2)⁻¹ * (π / 8)
noncomputable def aG1 (a q : ℝ) : ℝ := (q ^ 2)⁻¹ * (π / 2 * (1 - a ^ 2 * (mx a q)⁻¹ + a ^ 4 * (mx a q)⁻¹ ^ 2))
noncomputable def aG2 (a q : ℝ) : ℝ := π / 2 * (mx a q)⁻¹

theorem cube_inv (q g : ℝ) : q ^ 3 * ((q ^ 2)⁻¹ * g) = q * g := by
  rcases eq_or_ne q 0 with rfl | h
  · simp
  · field_simp

theorem continuous_kA {s : ℝ} (hs : 0 < s) : Continuous (kA s) := by
  have hsg : Continuous (sg s) := continuous_iff_continuousAt.2 fun x => (sg_deriv hs x).continuousAt
  have h0 : ∀ x, sg s x + s ≠ 0 := fun x => by have := sg_pos hs x; positivity
  unfold kA
  exact continuous_const.sub (Continuous.div (by fun_prop) (by fun_prop) fun x => pow_ne_zero _ (h0 x))

theorem continuous_angles {a : ℝ} (ha : 0 < a) :
    (Continuous fun q => q ^ 3 * aA1 a q) ∧ (Continuous fun q => q ^ 3 * aA2 a q) ∧ (Continuous fun q => q ^ 3 * aB1 a q) ∧
    (Continuous fun q => q ^ 3 * aB2 a q) ∧ (Continuous fun q => q ^ 3 * aC a q) ∧ (Continuous fun q => q ^ 3 * aT1 a q) ∧
    (Continuous fun q => q ^ 3 * aT2 a q) ∧ (Continuous fun q => q ^ 3 * aG1 a q) ∧ (Continuous fun q => q ^ 3 * aG2 a q) := by
  have h1 := (continuous_w1 (s := a ^ 2) (by positivity)).comp (continuous_pow 2 (M := ℝ))
  have h2 := (continuous_kA (s := a ^ 2) (by positivity)).comp (continuous_pow 2 (M := ℝ))
  have h3 : Continuous fun q : ℝ => (q ^ 2 + 1)⁻¹ := Continuous.inv₀ (by fun_prop) fun q => by positivity
  have h4 := continuousOn_angle ha
  have h5 : Continuous fun q : ℝ => (mx a q)⁻¹ := (continuous_mx a).inv₀ fun q => (mx_pos ha q).ne'
  simp only [Function.comp_def] at h1 h2
  simp only [aA1, aA2, aB1, aB2, aC, aT1, aT2, aG1, aG2, cube_inv]
  refine ⟨?_, ?_, ?_, ?_, ?_, ?_, ?_, ?_, ?_⟩ <;> fun_prop

theorem sin2_cos_int : ∫ t in (0 : ℝ)..π, Real.sin t ^ 2 * Real.cos t = 0 := by
  have d : ∀ t ∈ uIcc (0 : ℝ) π, HasDerivAt (fun t => Real.sin t ^ 3 / 3) (Real.sin t ^ 2 * Real.cos t) t := fun t _ => by
    refine (((Real.hasDerivAt_sin t).fun_pow 3).div_const 3).congr_deriv ?_
    norm_num
    ring
  rw [intervalIntegral.integral_eq_sub_of_hasDerivAt d (Continuous.intervalIntegrable (by fun_prop) _ _)]
  simp

theorem continuous_den {a q : ℝ} (ha : 0 < a) (hq : 0 < q) (hne : q ≠ a) :
    (Continuous fun t => (q ^ 2 + a ^ 2 + 2 * a * q * Real.cos t)⁻¹) ∧ Continuous fun t => (q ^ 2 + a ^ 2 + 2 * a * q * Real.cos t + 1)⁻¹ :=
  ⟨Continuous.inv₀ (by fun_prop) fun t => (den_pos ha hq hne t).ne', Continuous.inv₀ (by fun_prop) fun t => by
    have := den_pos ha hq hne t
    positivity⟩

theorem cA1_homogeneous : Homogeneous cA1 aA1 where
  averaged := fun {M} hM a =>
    { measurable := by unfold cA1; fun_prop
      nonneg := fun u v hv => by
        have := axis_nonneg a u
        unfold cA1
        positivity
      affine := fun x y v1 v2 v3 => by unfold cA1; ring }
  scale := fun {k} hk s x y v => by
    unfold cA1
    have e1 : k * y - k * s = k * (y - s) := by ring
    have e2 : k * x - k * s = k * (x - s) := by ring
    have e3 : k * y + k = k * (y + 1) := by ring
    have e4 : k * x + k = k * (x + 1) := by ring
    simp only [e1, e2, e3, e4, mul_pow, div_eq_mul_inv, mul_inv]
    generalize (x + 1)⁻¹ = g1
    generalize (y + 1)⁻¹ = g2
    generalize (x ^ 2)⁻¹ = g3
    generalize (y ^ 2)⁻¹ = g4
    generalize x⁻¹ = g5
    generalize y⁻¹ = g6
    field_simp
  continuous := fun ha => (continuous_angles ha).1
  angle := fun {a q} ha hq hne => by
    obtain ⟨c1, c2⟩ := continuous_den ha hq hne
    have e : ∀ t, Real.sin t ^ 2 * onAxis (cA1 1 (a ^ 2)) a (polar (q, t)) =
        (q ^ 2)⁻¹ ^ 2 * ((q ^ 2 - a ^ 2 - 1) * Real.sin t ^ 2 + 2 * a * q * (Real.sin t ^ 2 * Real.cos t)
          + (a ^ 2 + 1) ^ 2 * (Real.sin t ^ 2 * (q ^ 2 + a ^ 2 + 2 * a * q * Real.cos t + 1)⁻¹)) := fun t => by
      have hd := den_pos ha hq hne t
      rw [onAxis, polar_sq]
      simp only [polar, cA1]
      rw [← mul_assoc (2 * a) q]
      obtain ⟨y, hy⟩ : ∃ y, y = q ^ 2 + a ^ 2 + 2 * a * q * Real.cos t := ⟨_, rfl⟩
      rw [← hy] at hd ⊢
      have h1 : y + 1 ≠ 0 := by positivity
      have h2 : Real.cos t = (y - q ^ 2 - a ^ 2) / (2 * a * q) := by rw [hy]; field_simp; ring
      rw [h2]
      generalize Real.sin t = c
      field_simp
      ring
    simp only [e]
    refine ⟨(Continuous.integrableOn_Icc (by fun_prop)).mono_set Ioo_subset_Icc_self, ?_⟩
    rw [← integral_Ioc_eq_integral_Ioo, ← intervalIntegral.integral_of_le Real.pi_pos.le]
    rw [intervalIntegral.integral_const_mul, intervalIntegral.integral_add (Continuous.intervalIntegrable (by fun_prop) _ _) (Continuous.intervalIntegrable (by fun_prop) _ _), intervalIntegral.integral_add (Continuous.intervalIntegrable (by fun_prop) _ _) (Continuous.intervalIntegrable (by fun_prop) _ _), intervalIntegral.integral_const_mul, intervalIntegral.integral_const_mul, intervalIntegral.integral_const_mul, sin2_int, sin2_cos_int, sin2_mass ha hq, aA1]
    have hs : 0 < a ^ 2 := by positivity
    have key : q ^ 2 * kA (a ^ 2) (q ^ 2) = q ^ 2 - a ^ 2 - 1 + (a ^ 2 + 1) ^ 2 * w2 (a ^ 2) (q ^ 2) := by
      have ht := sg_pos hs (q ^ 2)
      have hx := x_eq hs (q ^ 2)
      rw [kA, w2]
      generalize sg (a ^ 2) (q ^ 2) = t at *
      generalize q ^ 2 = x at *
      have h3 : t + a ^ 2 ≠ 0 := by positivity
      rw [hx]
      field_simp
      ring
    have h4 : (q ^ 2)⁻¹ = (q ^ 2)⁻¹ ^ 2 * q ^ 2 := by field_simp
    linear_combination -((q ^ 2)⁻¹ ^ 2 * (π / 2)) * key - π / 2 * kA (a ^ 2) (q ^ 2) * h4

theorem cA2_homogeneous : Homogeneous cA2 aA2 where
  averaged := fun {M} hM a =>
    { measurable := by unfold cA2; fun_prop
      nonneg := fun u v hv => by
        have := axis_nonneg a u
        unfold cA2
        positivity
      affine := fun x y v1 v2 v3 => by unfold cA2; ring }
  scale := fun {k} hk s x y v => by
    unfold cA2
    have e1 : k * y - k * s = k * (y - s) := by ring
    have e2 : k * x - k * s = k * (x - s) := by ring
    have e3 : k * y + k = k * (y + 1) := by ring
    have e4 : k * x + k = k * (x + 1) := by ring
    simp only [e1, e2, e3, e4, mul_pow, div_eq_mul_inv, mul_inv]
    generalize (x + 1)⁻¹ = g1
    generalize (y + 1)⁻¹ = g2
    generalize (x ^ 2)⁻¹ = g3
    generalize (y ^ 2)⁻¹ = g4
    generalize x⁻¹ = g5
    generalize y⁻¹ = g6
    field_simp
  continuous := fun ha => (continuous_angles ha).2.1
  angle := fun {a q} ha hq hne => by
    obtain ⟨c1, c2⟩ := continuous_den ha hq hne
    have e : ∀ t, Real.sin t ^ 2 * onAxis (cA2 1 (a ^ 2)) a (polar (q, t)) =
        (q ^ 2)⁻¹ * (1 / 3 * (Real.sin t ^ 4 + a ^ 4 * (Real.sin t ^ 4 * (q ^ 2 + a ^ 2 + 2 * a * q * Real.cos t)⁻¹)
          - (a ^ 2 + 1) ^ 2 * (Real.sin t ^ 4 * (q ^ 2 + a ^ 2 + 2 * a * q * Real.cos t + 1)⁻¹))) := fun t => by
      have hd := den_pos ha hq hne t
      rw [onAxis, polar_sq]
      simp only [polar, cA2]
      rw [← mul_assoc (2 * a) q]
      obtain ⟨y, hy⟩ : ∃ y, y = q ^ 2 + a ^ 2 + 2 * a * q * Real.cos t := ⟨_, rfl⟩
      rw [← hy] at hd ⊢
      have h1 : y + 1 ≠ 0 := by positivity
      have h2 : q ^ 2 + 1 ≠ 0 := by positivity
      generalize Real.sin t = c
      field_simp
      ring
    simp only [e]
    refine ⟨(Continuous.integrableOn_Icc (by fun_prop)).mono_set Ioo_subset_Icc_self, ?_⟩
    rw [← integral_Ioc_eq_integral_Ioo, ← intervalIntegral.integral_of_le Real.pi_pos.le]
    rw [intervalIntegral.integral_const_mul, intervalIntegral.integral_const_mul, intervalIntegral.integral_sub (Continuous.intervalIntegrable (by fun_prop) _ _) (Continuous.intervalIntegrable (by fun_prop) _ _), intervalIntegral.integral_add (Continuous.intervalIntegrable (by fun_prop) _ _) (Continuous.intervalIntegrable (by fun_prop) _ _), intervalIntegral.integral_const_mul, intervalIntegral.integral_const_mul, sin4_int, sin4_den ha hq hne, sin4_mass ha hq, aA2]
    ring

theorem cB1_homogeneous : Homogeneous cB1 aB1 where
  averaged := fun {M} hM a =>
    { measurable := by unfold cB1; fun_prop
      nonneg := fun u v hv => by
        have := axis_nonneg a u
        unfold cB1
        positivity
      affine := fun x y v1 v2 v3 => by unfold cB1; ring }
  scale := fun {k} hk s x y v => by
    unfold cB1
    have e1 : k * y - k * s = k * (y - s) := by ring
    have e2 : k * x - k * s = k * (x - s) := by ring
    have e3 : k * y + k = k * (y + 1) := by ring
    have e4 : k * x + k = k * (x + 1) := by ring
    simp only [e1, e2, e3, e4, mul_pow, div_eq_mul_inv, mul_inv]
    generalize (x + 1)⁻¹ = g1
    generalize (y + 1)⁻¹ = g2
    generalize (x ^ 2)⁻¹ = g3
    generalize (y ^ 2)⁻¹ = g4
    generalize x⁻¹ = g5
    generalize y⁻¹ = g6
    field_simp
  continuous := fun ha => (continuous_angles ha).2.2.1
  angle := fun {a q} ha hq hne => by
    obtain ⟨c1, c2⟩ := continuous_den ha hq hne
    have e : ∀ t, Real.sin t ^ 2 * onAxis (cB1 1 (a ^ 2)) a (polar (q, t)) =
        (q ^ 2 - a ^ 2) ^ 2 * (q ^ 2 + 1)⁻¹ * (Real.sin t ^ 2 * (q ^ 2 + a ^ 2 + 2 * a * q * Real.cos t)⁻¹ ^ 2) := fun t => by
      have hd := den_pos ha hq hne t
      rw [onAxis, polar_sq]
      simp only [polar, cB1]
      rw [← mul_assoc (2 * a) q]
      obtain ⟨y, hy⟩ : ∃ y, y = q ^ 2 + a ^ 2 + 2 * a * q * Real.cos t := ⟨_, rfl⟩
      rw [← hy] at hd ⊢
      have h1 : y + 1 ≠ 0 := by positivity
      have h2 : q ^ 2 + 1 ≠ 0 := by positivity
      generalize Real.sin t = c
      field_simp
    simp only [e]
    refine ⟨(Continuous.integrableOn_Icc (by fun_prop)).mono_set Ioo_subset_Icc_self, ?_⟩
    rw [← integral_Ioc_eq_integral_Ioo, ← intervalIntegral.integral_of_le Real.pi_pos.le]
    rw [intervalIntegral.integral_const_mul, sin2_sq_den ha hq hne, aB1]
    have h3 : |q ^ 2 - a ^ 2| ≠ 0 := by
      rw [abs_ne_zero, sub_ne_zero]
      intro h
      exact hne ((pow_left_inj₀ hq.le ha.le two_ne_zero).1 h)
    have h4 := (mx_pos ha q).ne'
    rw [← sq_abs (q ^ 2 - a ^ 2)]
    field_simp

theorem cB2_homogeneous : Homogeneous cB2 aB2 where
  averaged := fun {M} hM a =>
    { measurable := by unfold cB2; fun_prop
      nonneg := fun u v hv => by
        have := axis_nonneg a u
        unfold cB2
        positivity
      affine := fun x y v1 v2 v3 => by unfold cB2; ring }
  scale := fun {k} hk s x y v => by
    unfold cB2
    have e1 : k * y - k * s = k * (y - s) := by ring
    have e2 : k * x - k * s = k * (x - s) := by ring
    have e3 : k * y + k = k * (y + 1) := by ring
    have e4 : k * x + k = k * (x + 1) := by ring
    simp only [e1, e2, e3, e4, mul_pow, div_eq_mul_inv, mul_inv]
    generalize (x + 1)⁻¹ = g1
    generalize (y + 1)⁻¹ = g2
    generalize (x ^ 2)⁻¹ = g3
    generalize (y ^ 2)⁻¹ = g4
    generalize x⁻¹ = g5
    generalize y⁻¹ = g6
    field_simp
  continuous := fun ha => (continuous_angles ha).2.2.2.1
  angle := fun {a q} ha hq hne => by
    obtain ⟨c1, c2⟩ := continuous_den ha hq hne
    have e : ∀ t, Real.sin t ^ 2 * onAxis (cB2 1 (a ^ 2)) a (polar (q, t)) =
        (q ^ 2 - a ^ 2) ^ 2 * (q ^ 2 + 1)⁻¹ / 3 * (Real.sin t ^ 4 * (q ^ 2 + a ^ 2 + 2 * a * q * Real.cos t)⁻¹ ^ 2) := fun t => by
      have hd := den_pos ha hq hne t
      rw [onAxis, polar_sq]
      simp only [polar, cB2]
      rw [← mul_assoc (2 * a) q]
      obtain ⟨y, hy⟩ : ∃ y, y = q ^ 2 + a ^ 2 + 2 * a * q * Real.cos t := ⟨_, rfl⟩
      rw [← hy] at hd ⊢
      have h1 : y + 1 ≠ 0 := by positivity
      have h2 : q ^ 2 + 1 ≠ 0 := by positivity
      generalize Real.sin t = c
      field_simp
    simp only [e]
    refine ⟨(Continuous.integrableOn_Icc (by fun_prop)).mono_set Ioo_subset_Icc_self, ?_⟩
    rw [← integral_Ioc_eq_integral_Ioo, ← intervalIntegral.integral_of_le Real.pi_pos.le]
    rw [intervalIntegral.integral_const_mul, sin4_sq_den ha hq hne, aB2]
    ring

theorem cC_homogeneous : Homogeneous cC aC where
  averaged := fun {M} hM a =>
    { measurable := by unfold cC; fun_prop
      nonneg := fun u v hv => by
        have := axis_nonneg a u
        unfold cC
        positivity
      affine := fun x y v1 v2 v3 => by unfold cC; ring }
  scale := fun {k} hk s x y v => by
    unfold cC
    have e1 : k * y - k * s = k * (y - s) := by ring
    have e2 : k * x - k * s = k * (x - s) := by ring
    have e3 : k * y + k = k * (y + 1) := by ring
    have e4 : k * x + k = k * (x + 1) := by ring
    simp only [e1, e2, e3, e4, mul_pow, div_eq_mul_inv, mul_inv]
    generalize (x + 1)⁻¹ = g1
    generalize (y + 1)⁻¹ = g2
    generalize (x ^ 2)⁻¹ = g3
    generalize (y ^ 2)⁻¹ = g4
    generalize x⁻¹ = g5
    generalize y⁻¹ = g6
    field_simp
  continuous := fun ha => (continuous_angles ha).2.2.2.2.1
  angle := fun {a q} ha hq hne => by
    obtain ⟨c1, c2⟩ := continuous_den ha hq hne
    have e : ∀ t, Real.sin t ^ 2 * onAxis (cC 1 (a ^ 2)) a (polar (q, t)) =
        (q ^ 2)⁻¹ * (a ^ 4 / 3) * (Real.sin t ^ 4 * (q ^ 2 + a ^ 2 + 2 * a * q * Real.cos t)⁻¹ ^ 2) := fun t => by
      have hd := den_pos ha hq hne t
      rw [onAxis, polar_sq]
      simp only [polar, cC]
      rw [← mul_assoc (2 * a) q]
      obtain ⟨y, hy⟩ : ∃ y, y = q ^ 2 + a ^ 2 + 2 * a * q * Real.cos t := ⟨_, rfl⟩
      rw [← hy] at hd ⊢
      have h1 : y + 1 ≠ 0 := by positivity
      have h2 : q ^ 2 + 1 ≠ 0 := by positivity
      generalize Real.sin t = c
      field_simp
    simp only [e]
    refine ⟨(Continuous.integrableOn_Icc (by fun_prop)).mono_set Ioo_subset_Icc_self, ?_⟩
    rw [← integral_Ioc_eq_integral_Ioo, ← intervalIntegral.integral_of_le Real.pi_pos.le]
    rw [intervalIntegral.integral_const_mul, sin4_sq_den ha hq hne, aC]
    ring

theorem cT1_homogeneous : Homogeneous cT1 aT1 where
  averaged := fun {M} hM a =>
    { measurable := by unfold cT1; fun_prop
      nonneg := fun u v hv => by
        have := axis_nonneg a u
        unfold cT1
        positivity
      affine := fun x y v1 v2 v3 => by unfold cT1; ring }
  scale := fun {k} hk s x y v => by
    exact mul_inv k x
  continuous := fun ha => (continuous_angles ha).2.2.2.2.2.1
  angle := fun {a q} ha hq hne => by
    obtain ⟨c1, c2⟩ := continuous_den ha hq hne
    have e : ∀ t, Real.sin t ^ 2 * onAxis (cT1 1 (a ^ 2)) a (polar (q, t)) =
        (q ^ 2)⁻¹ * Real.sin t ^ 2 := fun t => by
      have hd := den_pos ha hq hne t
      rw [onAxis, polar_sq]
      simp only [polar, cT1]
      ring
    simp only [e]
    refine ⟨(Continuous.integrableOn_Icc (by fun_prop)).mono_set Ioo_subset_Icc_self, ?_⟩
    rw [← integral_Ioc_eq_integral_Ioo, ← intervalIntegral.integral_of_le Real.pi_pos.le]
    rw [intervalIntegral.integral_const_mul, sin2_int, aT1]


theorem cT2_homogeneous : Homogeneous cT2 aT2 where
  averaged := fun {M} hM a =>
    { measurable := by unfold cT2; fun_prop
      nonneg := fun u v hv => by
        have := axis_nonneg a u
        unfold cT2
        positivity
      affine := fun x y v1 v2 v3 => by unfold cT2; ring }
  scale := fun {k} hk s x y v => by
    unfold cT2
    have e1 : k * y - k * s = k * (y - s) := by ring
    have e2 : k * x - k * s = k * (x - s) := by ring
    have e3 : k * y + k = k * (y + 1) := by ring
    have e4 : k * x + k = k * (x + 1) := by ring
    simp only [e1, e2, e3, e4, mul_pow, div_eq_mul_inv, mul_inv]
    generalize (x + 1)⁻¹ = g1
    generalize (y + 1)⁻¹ = g2
    generalize (x ^ 2)⁻¹ = g3
    generalize (y ^ 2)⁻¹ = g4
    generalize x⁻¹ = g5
    generalize y⁻¹ = g6
    field_simp
  continuous := fun ha => (continuous_angles ha).2.2.2.2.2.2.1
  angle := fun {a q} ha hq hne => by
    obtain ⟨c1, c2⟩ := continuous_den ha hq hne
    have e : ∀ t, Real.sin t ^ 2 * onAxis (cT2 1 (a ^ 2)) a (polar (q, t)) =
        (q ^ 2)⁻¹ / 3 * Real.sin t ^ 4 := fun t => by
      have hd := den_pos ha hq hne t
      rw [onAxis, polar_sq]
      simp only [polar, cT2]
      field_simp
    simp only [e]
    refine ⟨(Continuous.integrableOn_Icc (by fun_prop)).mono_set Ioo_subset_Icc_self, ?_⟩
    rw [← integral_Ioc_eq_integral_Ioo, ← intervalIntegral.integral_of_le Real.pi_pos.le]
    rw [intervalIntegral.integral_const_mul, sin4_int, aT2]
    ring

theorem cG1_homogeneous : Homogeneous cG1 aG1 where
  averaged := fun {M} hM a =>
    { measurable := by unfold cG1; fun_prop
      nonneg := fun u v hv => by
        have := axis_nonneg a u
        unfold cG1
        positivity
      affine := fun x y v1 v2 v3 => by unfold cG1; ring }
  scale := fun {k} hk s x y v => by
    unfold cG1
    have e1 : k * y - k * s = k * (y - s) := by ring
    have e2 : k * x - k * s = k * (x - s) := by ring
    have e3 : k * y + k = k * (y + 1) := by ring
    have e4 : k * x + k = k * (x + 1) := by ring
    simp only [e1, e2, e3, e4, mul_pow, div_eq_mul_inv, mul_inv]
    generalize (x + 1)⁻¹ = g1
    generalize (y + 1)⁻¹ = g2
    generalize (x ^ 2)⁻¹ = g3
    generalize (y ^ 2)⁻¹ = g4
    generalize x⁻¹ = g5
    generalize y⁻¹ = g6
    field_simp
  continuous := fun ha => (continuous_angles ha).2.2.2.2.2.2.2.1
  angle := fun {a q} ha hq hne => by
    obtain ⟨c1, c2⟩ := continuous_den ha hq hne
    have e : ∀ t, Real.sin t ^ 2 * onAxis (cG1 1 (a ^ 2)) a (polar (q, t)) =
        (q ^ 2)⁻¹ ^ 2 * ((q ^ 2 - a ^ 2) * Real.sin t ^ 2 + 2 * a * q * (Real.sin t ^ 2 * Real.cos t)
          + a ^ 4 * (Real.sin t ^ 2 * (q ^ 2 + a ^ 2 + 2 * a * q * Real.cos t)⁻¹)) := fun t => by
      have hd := den_pos ha hq hne t
      rw [onAxis, polar_sq]
      simp only [polar, cG1]
      rw [← mul_assoc (2 * a) q]
      obtain ⟨y, hy⟩ : ∃ y, y = q ^ 2 + a ^ 2 + 2 * a * q * Real.cos t := ⟨_, rfl⟩
      rw [← hy] at hd ⊢
      have h2 : Real.cos t = (y - q ^ 2 - a ^ 2) / (2 * a * q) := by rw [hy]; field_simp; ring
      rw [h2]
      generalize Real.sin t = c
      field_simp
      ring
    simp only [e]
    refine ⟨(Continuous.integrableOn_Icc (by fun_prop)).mono_set Ioo_subset_Icc_self, ?_⟩
    rw [← integral_Ioc_eq_integral_Ioo, ← intervalIntegral.integral_of_le Real.pi_pos.le]
    rw [intervalIntegral.integral_const_mul, intervalIntegral.integral_add (Continuous.intervalIntegrable (by fun_prop) _ _) (Continuous.intervalIntegrable (by fun_prop) _ _), intervalIntegral.integral_add (Continuous.intervalIntegrable (by fun_prop) _ _) (Continuous.intervalIntegrable (by fun_prop) _ _), intervalIntegral.integral_const_mul, intervalIntegral.integral_const_mul, intervalIntegral.integral_const_mul, sin2_int, sin2_cos_int, sin2_den ha hq hne, aG1]
    rcases lt_or_gt_of_ne hne with h | h
    · rw [mx_low hq.le h.le]
      field_simp
      ring
    · rw [mx_high ha.le h.le]
      field_simp
      ring

theorem cG2_homogeneous : Homogeneous cG2 aG2 where
  averaged := fun {M} hM a =>
    { measurable := by unfold cG2; fun_prop
      nonneg := fun u v hv => by
        have := axis_nonneg a u
        unfold cG2
        positivity
      affine := fun x y v1 v2 v3 => by unfold cG2; ring }
  scale := fun {k} hk s x y v => by
    exact mul_inv k y
  continuous := fun ha => (continuous_angles ha).2.2.2.2.2.2.2.2
  angle := fun {a q} ha hq hne => by
    obtain ⟨c1, c2⟩ := continuous_den ha hq hne
    have e : ∀ t, Real.sin t ^ 2 * onAxis (cG2 1 (a ^ 2)) a (polar (q, t)) =
        Real.sin t ^ 2 * (q ^ 2 + a ^ 2 + 2 * a * q * Real.cos t)⁻¹ := fun t => by
      have hd := den_pos ha hq hne t
      rw [onAxis, polar_sq]
      simp only [polar, cG2]
      rw [← mul_assoc (2 * a) q]
    simp only [e]
    refine ⟨(Continuous.integrableOn_Icc (by fun_prop)).mono_set Ioo_subset_Icc_self, ?_⟩
    rw [← integral_Ioc_eq_integral_Ioo, ← intervalIntegral.integral_of_le Real.pi_pos.le]
    rw [sin2_den ha hq hne, aG2]
    ring

end Qcd.Hyper
