import Verif.Lemmas.VacuumPolarised
import Verif.Lemmas.GluonFinite

/-! # The diagrams of the gluon self-energy in vacuum, over a ball -/

namespace Qcd.Hyper
open MeasureTheory Set Spec Matrix GluonRadial
open scoped Real RealInnerProductSpace

/-! ### The massive line -/

theorem sin4_mass {a q : ℝ} (ha : 0 < a) (hq : 0 < q) :
    ∫ t in (0 : ℝ)..π, Real.sin t ^ 4 * (q ^ 2 + a ^ 2 + 2 * a * q * Real.cos t + 1)⁻¹ = π / 8 * w1 (a ^ 2) (q ^ 2) := by
  have hs : 0 < a ^ 2 := by positivity
  have ht := sg_pos hs (q ^ 2)
  have hx := x_eq hs (q ^ 2)
  rw [w1]
  have h0 : 0 < q ^ 2 := by positivity
  generalize sg (a ^ 2) (q ^ 2) = t at *
  have hp : 0 < t + a ^ 2 := by positivity
  have h1 : (q ^ 2) * t = (t - 1) * (t + a ^ 2) := by rw [hx]; field_simp
  have hr : a * q / (t + a ^ 2) < 1 := by
    rw [div_lt_one hp, ← sq_lt_sq₀ (by positivity) (by positivity)]
    have : (a * q) ^ 2 * t < (t + a ^ 2) ^ 2 * t := by
      have e : (a * q) ^ 2 * t = a ^ 2 * ((t - 1) * (t + a ^ 2)) := by rw [← h1]; ring
      rw [e]
      nlinarith [mul_pos ht hp, mul_pos hs hp, mul_pos (mul_pos ht ht) hp]
    exact lt_of_mul_lt_mul_right this ht.le
  have e : ∀ c : ℝ, (q ^ 2 + a ^ 2 + 2 * a * q * c + 1)⁻¹ =
      (t + a ^ 2)⁻¹ * (1 + (a * q / (t + a ^ 2)) ^ 2 + 2 * (a * q / (t + a ^ 2)) * c)⁻¹ := fun c => by
    rw [← mul_inv]
    congr 1
    have : q ^ 2 = (t - 1) * (t + a ^ 2) / t := hx
    have e2 : (a * q / (t + a ^ 2)) ^ 2 = a ^ 2 * ((t - 1) / (t * (t + a ^ 2))) := by
      rw [div_pow, mul_pow, this]
      field_simp
    rw [e2, this]
    field_simp
    ring
  simp only [e]
  have e3 : ∀ x : ℝ, Real.sin x ^ 4 * ((t + a ^ 2)⁻¹ * (1 + (a * q / (t + a ^ 2)) ^ 2 + 2 * (a * q / (t + a ^ 2)) * Real.cos x)⁻¹) =
      (t + a ^ 2)⁻¹ * (Real.sin x ^ 4 * (1 + (a * q / (t + a ^ 2)) ^ 2 + 2 * (a * q / (t + a ^ 2)) * Real.cos x)⁻¹) := fun x => by ring
  simp only [e3]
  rw [intervalIntegral.integral_const_mul, sin4_small (by positivity) hr]
  field_simp

theorem sin2_int : ∫ t in (0 : ℝ)..π, Real.sin t ^ 2 = π / 2 := by
  rw [integral_sin_sq]; simp

theorem sin4_int : ∫ t in (0 : ℝ)..π, Real.sin t ^ 4 = 3 * π / 8 := by
  have := sin4_small (r := 0) le_rfl one_pos
  norm_num at this
  rw [this]
  ring

/-! ### Gluon loop -/

/-- The gluon loop, as a function of the scalar products. -/
noncomputable def glF (M s x y v : ℝ) : ℝ :=
  2 * (v * (2 + (x + y - s) ^ 2 / (4 * x * y)) + (x * y - (x + y - s) ^ 2 / 4) * (1 / x + 1 / y)) / ((x + M) * (y + M))

theorem gluon_vec {P e Q : E4} (he : ‖e‖ = 1) (ho : (⟪e, P⟫ : ℝ) = 0) (M : ℝ) (hQ : Q ≠ 0) (hPQ : P + Q ≠ 0) :
    gluonLoop (vec e) (vec P) M (vec Q) = ((scalar (glF M (‖P‖ ^ 2)) e P Q : ℝ) : ℂ) := by
  have h1 : vec e ⬝ᵥ vec e = 1 := by rw [vec_dot, real_inner_self_eq_norm_sq, he]; norm_num
  have h2 : vec e ⬝ᵥ vec P = 0 := by rw [vec_dot, ho]; norm_num
  have h3 : msq (vec Q) ≠ 0 := by
    rw [vec_msq]
    have : ‖Q‖ ≠ 0 := norm_ne_zero_iff.2 hQ
    exact_mod_cast pow_ne_zero 2 this
  have h4 : msq (vec P + vec Q) ≠ 0 := by
    rw [vec_add, vec_msq]
    have : ‖P + Q‖ ≠ 0 := norm_ne_zero_iff.2 hPQ
    exact_mod_cast pow_ne_zero 2 this
  rw [gluonLoop_closed h1 h2 M h3 h4, vec_add, vec_msq, vec_msq, vec_msq, vec_dot, scalar, glF, gX]
  push_cast
  ring

theorem glF_averaged {M : ℝ} (hM : 0 < M) (a : ℝ) : Averaged (glF M (a ^ 2)) a where
  measurable := by unfold glF; fun_prop
  nonneg := fun u v hv => by
    have h1 : 0 ≤ u.1 ^ 2 + u.2 ^ 2 := by positivity
    have h2 : 0 ≤ u.1 ^ 2 + u.2 ^ 2 + a ^ 2 + 2 * a * u.1 := by nlinarith [sq_nonneg (u.1 + a)]
    have h3 : 0 ≤ (u.1 ^ 2 + u.2 ^ 2) * (u.1 ^ 2 + u.2 ^ 2 + a ^ 2 + 2 * a * u.1)
        - (u.1 ^ 2 + u.2 ^ 2 + (u.1 ^ 2 + u.2 ^ 2 + a ^ 2 + 2 * a * u.1) - a ^ 2) ^ 2 / 4 := by
      have : (u.1 ^ 2 + u.2 ^ 2) * (u.1 ^ 2 + u.2 ^ 2 + a ^ 2 + 2 * a * u.1)
        - (u.1 ^ 2 + u.2 ^ 2 + (u.1 ^ 2 + u.2 ^ 2 + a ^ 2 + 2 * a * u.1) - a ^ 2) ^ 2 / 4 = (a * u.2) ^ 2 := by ring
      rw [this]
      positivity
    unfold glF
    positivity
  affine := fun x y v1 v2 v3 => by unfold glF; ring

theorem glF_scale {k : ℝ} (hk : k ≠ 0) (s x y v : ℝ) : glF k (k * s) (k * x) (k * y) (k * v) = k⁻¹ * glF 1 s x y v := by
  have h1 : k * x + k * y - k * s = k * (x + y - s) := by ring
  have h2 : k * x + k = k * (x + 1) := by ring
  have h3 : k * y + k = k * (y + 1) := by ring
  unfold glF
  rw [h1, h2, h3]
  simp only [div_eq_mul_inv, mul_inv]
  generalize (x + 1)⁻¹ = a
  generalize (y + 1)⁻¹ = b
  generalize x⁻¹ = c
  generalize y⁻¹ = d
  field_simp

theorem glF_polar_scale {r : ℝ} (hr : 0 < r) (a q t : ℝ) :
    onAxis (glF (r ^ 2) ((r * a) ^ 2)) (r * a) (polar (r * q, t)) = (r ^ 2)⁻¹ * onAxis (glF 1 (a ^ 2)) a (polar (q, t)) := by
  have hk : r ^ 2 ≠ 0 := by positivity
  unfold onAxis
  rw [← glF_scale hk]
  simp only [polar]
  congr 1 <;> ring

theorem glF_polar {a q : ℝ} (ha : 0 < a) (hq : 0 < q) (hne : q ≠ a) (t : ℝ) :
    Real.sin t ^ 2 * onAxis (glF 1 (a ^ 2)) a (polar (q, t)) =
      (6 * (q ^ 2 + 1))⁻¹ * (Real.sin t ^ 4 + ((q ^ 2 - a ^ 2) ^ 2 + 12 * a ^ 2 * q ^ 2) * (Real.sin t ^ 4 * (q ^ 2 + a ^ 2 + 2 * a * q * Real.cos t)⁻¹)
        + (8 * q ^ 2 + 12 * a ^ 2 - (q ^ 2 - 1 - a ^ 2) ^ 2 - 12 * a ^ 2 * q ^ 2) * (Real.sin t ^ 4 * (q ^ 2 + a ^ 2 + 2 * a * q * Real.cos t + 1)⁻¹)) := by
  have hd := den_pos ha hq hne t
  rw [onAxis, polar_sq]
  simp only [polar, glF]
  have e1 : q ^ 2 + a ^ 2 + 2 * a * (q * Real.cos t) = q ^ 2 + a ^ 2 + 2 * a * q * Real.cos t := by ring
  rw [e1]
  obtain ⟨y, hy⟩ : ∃ y, y = q ^ 2 + a ^ 2 + 2 * a * q * Real.cos t := ⟨_, rfl⟩
  rw [← hy] at hd ⊢
  have e2 : q ^ 2 * y - (q ^ 2 + y - a ^ 2) ^ 2 / 4 = a ^ 2 * q ^ 2 * Real.sin t ^ 2 := by
    rw [hy]
    linear_combination a ^ 2 * q ^ 2 * (-Real.sin_sq_add_cos_sq t)
  rw [e2]
  have h1 : y + 1 ≠ 0 := by positivity
  have h2 : q ^ 2 + 1 ≠ 0 := by positivity
  generalize Real.sin t = c
  clear hy e1 e2 hne
  field_simp
  ring

theorem glF_angle {a q : ℝ} (ha : 0 < a) (hq : 0 < q) (hne : q ≠ a) :
    IntegrableOn (fun t => Real.sin t ^ 2 * onAxis (glF 1 (a ^ 2)) a (polar (q, t))) (Ioo 0 π) ∧
      ∫ t in Ioo 0 π, Real.sin t ^ 2 * onAxis (glF 1 (a ^ 2)) a (polar (q, t)) = glAngle a q := by
  simp only [glF_polar ha hq hne]
  have c1 : Continuous fun t => (q ^ 2 + a ^ 2 + 2 * a * q * Real.cos t)⁻¹ := Continuous.inv₀ (by fun_prop) fun t => (den_pos ha hq hne t).ne'
  have c2 : Continuous fun t => (q ^ 2 + a ^ 2 + 2 * a * q * Real.cos t + 1)⁻¹ := Continuous.inv₀ (by fun_prop) fun t => by
    have := den_pos ha hq hne t
    positivity
  refine ⟨(Continuous.integrableOn_Icc (by fun_prop)).mono_set Ioo_subset_Icc_self, ?_⟩
  rw [← integral_Ioc_eq_integral_Ioo, ← intervalIntegral.integral_of_le Real.pi_pos.le, intervalIntegral.integral_const_mul,
    intervalIntegral.integral_add (Continuous.intervalIntegrable (by fun_prop) _ _) (Continuous.intervalIntegrable (by fun_prop) _ _),
    intervalIntegral.integral_add (Continuous.intervalIntegrable (by fun_prop) _ _) (Continuous.intervalIntegrable (by fun_prop) _ _),
    intervalIntegral.integral_const_mul, intervalIntegral.integral_const_mul, sin4_int, sin4_den ha hq hne, sin4_mass ha hq, glAngle]

theorem ball_gluon {P e : E4} (hP : P ≠ 0) (he : ‖e‖ = 1) (ho : (⟪e, P⟫ : ℝ) = 0) {M : ℝ} (hM : 0 < M) (R : ℝ) :
    IntegrableOn (scalar (glF M (‖P‖ ^ 2)) e P) (Metric.ball 0 R) ∧
      ∫ Q in Metric.ball (0 : E4) R, scalar (glF M (‖P‖ ^ 2)) e P Q =
        4 * π * ∫ q in Ioo 0 R, q ^ 3 * (M⁻¹ * glAngle (‖P‖ / √M) (q / √M)) := by
  have hn : 0 < ‖P‖ := norm_pos_iff.2 hP
  have hr : 0 < √M := Real.sqrt_pos.2 hM
  have hrM : √M ^ 2 = M := Real.sq_sqrt hM.le
  have ha : 0 < ‖P‖ / √M := by positivity
  have hav := glF_averaged hM ‖P‖
  have eq : ∀ q t : ℝ, Real.sin t ^ 2 * onAxis (glF M (‖P‖ ^ 2)) ‖P‖ (polar (q, t)) =
      M⁻¹ * (Real.sin t ^ 2 * onAxis (glF 1 ((‖P‖ / √M) ^ 2)) (‖P‖ / √M) (polar (q / √M, t))) := fun q t => by
    have := glF_polar_scale hr (‖P‖ / √M) (q / √M) t
    rw [hrM, mul_div_cancel₀ _ hr.ne', mul_div_cancel₀ _ hr.ne'] at this
    rw [this]
    ring
  have hcont : Continuous fun q : ℝ => q ^ 3 * (M⁻¹ * glAngle (‖P‖ / √M) (q / √M)) := by
    have := (continuous_glAngle ha).comp (continuous_id.div_const √M)
    simp only [Function.comp_def, id] at this
    fun_prop
  have hax := ball_axis (measurable_onAxis hav.measurable ‖P‖) (fun u => hav.nonneg u _ (by positivity)) (a := ‖P‖) (R := R)
    (A := fun q => M⁻¹ * glAngle (‖P‖ / √M) (q / √M)) (fun q hq hne => by
      simp only [eq]
      exact (glF_angle ha (by positivity) (fun h => hne ((div_left_inj' hr.ne').1 h))).1.const_mul _) (fun q hq hne => by
      simp only [eq]
      rw [integral_const_mul, (glF_angle ha (by positivity) (fun h => hne ((div_left_inj' hr.ne').1 h))).2])
    ((hcont.integrableOn_Icc).mono_set Ioo_subset_Icc_self)
  obtain ⟨h1, h2⟩ := ball_pol hP he ho hav hax.1
  exact ⟨h1, h2.trans hax.2⟩

theorem gluon_radial_scale {a M R : ℝ} (ha : 0 < a) (hM : 0 < M) (hR : a < R) :
    ∫ q in Ioo 0 R, q ^ 3 * (M⁻¹ * glAngle (a / √M) (q / √M)) =
      M * (π / 96 * (Khi (a ^ 2 / M) (R ^ 2 / M) + F1 (a ^ 2 / M) (sg (a ^ 2 / M) (R ^ 2 / M)) - Khi (a ^ 2 / M) (a ^ 2 / M) + Klo (a ^ 2 / M) (a ^ 2 / M)
        - F1 (a ^ 2 / M) 1)) := by
  have hr : 0 < √M := Real.sqrt_pos.2 hM
  have hrM : √M ^ 2 = M := Real.sq_sqrt hM.le
  have h := gluon_radial (a := a / √M) (R := R / √M) (by positivity) (div_lt_div_of_pos_right hR hr)
  rw [div_pow, div_pow, hrM] at h
  rw [← h, ← integral_Ioc_eq_integral_Ioo, ← integral_Ioc_eq_integral_Ioo, ← intervalIntegral.integral_of_le (ha.trans hR).le,
    ← intervalIntegral.integral_of_le (by have := ha.trans hR; positivity)]
  have e : ∀ q : ℝ, q ^ 3 * (M⁻¹ * glAngle (a / √M) (q / √M)) = √M * ((q / √M) ^ 3 * glAngle (a / √M) (q / √M)) := fun q => by
    generalize glAngle (a / √M) (q / √M) = g
    rw [show M⁻¹ = (√M ^ 2)⁻¹ by rw [hrM]]
    field_simp
  simp only [e]
  rw [intervalIntegral.integral_const_mul, intervalIntegral.integral_comp_div (fun q => q ^ 3 * glAngle (a / √M) q) hr.ne', smul_eq_mul, zero_div,
    ← mul_assoc, ← sq, hrM]

/-! ### Ghost loop -/

noncomputable def ghF (x y v : ℝ) : ℝ := v / (x * y)

theorem ghost_loop_vec {P e : E4} (ho : (⟪e, P⟫ : ℝ) = 0) (Q : E4) :
    ghostLoop (vec e) (vec P) (vec Q) = ((-scalar ghF e P Q : ℝ) : ℂ) := by
  have h2 : vec e ⬝ᵥ vec P = 0 := by rw [vec_dot, ho]; norm_num
  rw [ghostLoop_closed h2, vec_add, vec_msq, vec_msq, vec_dot, scalar, ghF]
  push_cast
  ring

theorem ghF_averaged (a : ℝ) : Averaged ghF a where
  measurable := by unfold ghF; fun_prop
  nonneg := fun u v hv => by
    have h1 : 0 ≤ u.1 ^ 2 + u.2 ^ 2 := by positivity
    have h2 : 0 ≤ u.1 ^ 2 + u.2 ^ 2 + a ^ 2 + 2 * a * u.1 := by nlinarith [sq_nonneg (u.1 + a)]
    unfold ghF
    positivity
  affine := fun x y v1 v2 v3 => by unfold ghF; ring

theorem ghF_polar (a : ℝ) {q : ℝ} (hq : 0 < q) (t : ℝ) :
    Real.sin t ^ 2 * onAxis ghF a (polar (q, t)) = 1 / 3 * (Real.sin t ^ 4 * (q ^ 2 + a ^ 2 + 2 * a * q * Real.cos t)⁻¹) := by
  rw [onAxis, polar_sq]
  simp only [polar, ghF]
  rw [← mul_assoc (2 * a) q, div_eq_mul_inv, mul_inv]
  generalize (q ^ 2 + a ^ 2 + 2 * a * q * Real.cos t)⁻¹ = y
  field_simp

theorem ball_ghost_loop {P e : E4} (hP : P ≠ 0) (he : ‖e‖ = 1) (ho : (⟪e, P⟫ : ℝ) = 0) (R : ℝ) :
    IntegrableOn (scalar ghF e P) (Metric.ball 0 R) ∧
      ∫ Q in Metric.ball (0 : E4) R, scalar ghF e P Q = 4 * π * ∫ q in Ioo 0 R, q ^ 3 * (1 / 3 * angle ‖P‖ q) := by
  have hn : 0 < ‖P‖ := norm_pos_iff.2 hP
  have hav := ghF_averaged ‖P‖
  have hax := ball_axis (measurable_onAxis hav.measurable ‖P‖) (fun u => hav.nonneg u _ (by positivity)) (a := ‖P‖) (R := R)
    (A := fun q => 1 / 3 * angle ‖P‖ q) (fun q hq hne => by
      simp only [ghF_polar _ hq]
      refine (Continuous.integrableOn_Icc ?_).mono_set Ioo_subset_Icc_self
      have : Continuous fun t => (q ^ 2 + ‖P‖ ^ 2 + 2 * ‖P‖ * q * Real.cos t)⁻¹ := Continuous.inv₀ (by fun_prop) fun t => (den_pos hn hq hne t).ne'
      fun_prop) (fun q hq hne => by
      simp only [ghF_polar _ hq]
      rw [integral_const_mul, ← sin4_den hn hq hne, intervalIntegral.integral_of_le Real.pi_pos.le, integral_Ioc_eq_integral_Ioo])
    (by
      refine (Continuous.integrableOn_Icc ?_).mono_set Ioo_subset_Icc_self
      have h4 := continuousOn_angle hn
      fun_prop)
  obtain ⟨h1, h2⟩ := ball_pol hP he ho hav hax.1
  exact ⟨h1, h2.trans hax.2⟩

theorem ghost_loop_radial {a R : ℝ} (ha : 0 < a) (hR : a < R) :
    ∫ q in Ioo 0 R, q ^ 3 * (1 / 3 * angle a q) = π / 48 * (3 * R ^ 2 - a ^ 2 * Real.log (R ^ 2) + a ^ 2 * Real.log (a ^ 2) - 11 / 6 * a ^ 2) := by
  have hc : Continuous fun q : ℝ => q ^ 3 * (1 / 3 * angle a q) := by
    have h4 := continuousOn_angle ha
    fun_prop
  rw [← integral_Ioc_eq_integral_Ioo, ← intervalIntegral.integral_of_le (ha.trans hR).le,
    ← intervalIntegral.integral_add_adjacent_intervals (hc.intervalIntegrable 0 a) (hc.intervalIntegrable a R)]
  have i2 : ∀ q : ℝ, HasDerivAt (fun q : ℝ => q ^ 2) (2 * q) q := fun q => by simpa using hasDerivAt_pow 2 q
  have d1 : ∀ q ∈ uIcc 0 a, HasDerivAt (fun q : ℝ => π / 24 * (3 * q ^ 4 / (4 * a ^ 2) - q ^ 6 / (6 * a ^ 4))) (q ^ 3 * (1 / 3 * angle a q)) q := fun q hq => by
    rw [uIcc_of_le ha.le] at hq
    have h4 : HasDerivAt (fun q : ℝ => q ^ 4) (4 * q ^ 3) q := by simpa using hasDerivAt_pow 4 q
    have h6 : HasDerivAt (fun q : ℝ => q ^ 6) (6 * q ^ 5) q := by simpa using hasDerivAt_pow 6 q
    refine ((((h4.const_mul 3).div_const (4 * a ^ 2)).sub (h6.div_const (6 * a ^ 4))).const_mul (π / 24)).congr_deriv ?_
    rw [angle, if_pos hq.2]
    field_simp
    ring
  have d2 : ∀ q ∈ uIcc a R, HasDerivAt (fun q : ℝ => π / 48 * (3 * q ^ 2 - a ^ 2 * Real.log (q ^ 2))) (q ^ 3 * (1 / 3 * angle a q)) q := fun q hq => by
    rw [uIcc_of_le hR.le] at hq
    have h0 : 0 < q := lt_of_lt_of_le ha hq.1
    have hl : HasDerivAt (fun q : ℝ => Real.log (q ^ 2)) (2 * q / q ^ 2) q := (i2 q).log (by positivity)
    refine ((((i2 q).const_mul 3).sub (hl.const_mul (a ^ 2))).const_mul (π / 48)).congr_deriv ?_
    have h2 : angle a q = π / 8 * (3 - a ^ 2 / q ^ 2) / q ^ 2 := by
      rcases hq.1.eq_or_lt with rfl | h
      · simp [angle]
      · simp only [angle, if_neg (not_le.2 h)]
    rw [h2]
    field_simp
    ring
  rw [intervalIntegral.integral_eq_sub_of_hasDerivAt d1 (hc.intervalIntegrable _ _),
    intervalIntegral.integral_eq_sub_of_hasDerivAt d2 (hc.intervalIntegrable _ _)]
  norm_num
  field_simp
  ring

/-! ### Tadpole -/

noncomputable def tdF (M x _y v : ℝ) : ℝ := (2 + v / x) / (x + M)

theorem tadpole_vec {e Q : E4} (P : E4) (he : ‖e‖ = 1) (M : ℝ) (hQ : Q ≠ 0) :
    gluonTadpole (vec e) M (vec Q) = ((-scalar (tdF M) e P Q : ℝ) : ℂ) := by
  have h1 : vec e ⬝ᵥ vec e = 1 := by rw [vec_dot, real_inner_self_eq_norm_sq, he]; norm_num
  have h3 : msq (vec Q) ≠ 0 := by
    rw [vec_msq]
    have : ‖Q‖ ≠ 0 := norm_ne_zero_iff.2 hQ
    exact_mod_cast pow_ne_zero 2 this
  rw [gluonTadpole_closed h1 M h3, vec_msq, vec_dot, scalar, tdF]
  push_cast
  ring

theorem tdF_averaged {M : ℝ} (hM : 0 < M) (a : ℝ) : Averaged (tdF M) a where
  measurable := by unfold tdF; fun_prop
  nonneg := fun u v hv => by
    unfold tdF
    positivity
  affine := fun x y v1 v2 v3 => by unfold tdF; ring

theorem tdF_polar (M a : ℝ) {q : ℝ} (hq : 0 < q) (t : ℝ) :
    Real.sin t ^ 2 * onAxis (tdF M) a (polar (q, t)) = (q ^ 2 + M)⁻¹ * (2 * Real.sin t ^ 2 + 1 / 3 * Real.sin t ^ 4) := by
  rw [onAxis, polar_sq]
  simp only [polar, tdF]
  rw [div_eq_mul_inv]
  generalize (q ^ 2 + M)⁻¹ = y
  field_simp

theorem ball_tadpole {P e : E4} (hP : P ≠ 0) (he : ‖e‖ = 1) (ho : (⟪e, P⟫ : ℝ) = 0) {M : ℝ} (hM : 0 < M) (R : ℝ) :
    IntegrableOn (scalar (tdF M) e P) (Metric.ball 0 R) ∧
      ∫ Q in Metric.ball (0 : E4) R, scalar (tdF M) e P Q = 4 * π * ∫ q in Ioo 0 R, q ^ 3 * ((q ^ 2 + M)⁻¹ * (9 * π / 8)) := by
  have hav := tdF_averaged hM ‖P‖
  have hax := ball_axis (measurable_onAxis hav.measurable ‖P‖) (fun u => hav.nonneg u _ (by positivity)) (a := ‖P‖) (R := R)
    (A := fun q => (q ^ 2 + M)⁻¹ * (9 * π / 8)) (fun q hq hne => by
      simp only [tdF_polar _ _ hq]
      exact (Continuous.integrableOn_Icc (by fun_prop)).mono_set Ioo_subset_Icc_self) (fun q hq hne => by
      simp only [tdF_polar _ _ hq]
      rw [integral_const_mul, ← integral_Ioc_eq_integral_Ioo, ← intervalIntegral.integral_of_le Real.pi_pos.le,
        intervalIntegral.integral_add (Continuous.intervalIntegrable (by fun_prop) _ _) (Continuous.intervalIntegrable (by fun_prop) _ _),
        intervalIntegral.integral_const_mul, intervalIntegral.integral_const_mul, sin2_int, sin4_int]
      ring)
    (by
      refine (Continuous.integrableOn_Icc ?_).mono_set Ioo_subset_Icc_self
      have h3 : Continuous fun q : ℝ => (q ^ 2 + M)⁻¹ := Continuous.inv₀ (by fun_prop) fun q => by positivity
      fun_prop)
  obtain ⟨h1, h2⟩ := ball_pol hP he ho hav hax.1
  exact ⟨h1, h2.trans hax.2⟩

theorem tadpole_radial {M R : ℝ} (hM : 0 < M) (hR : 0 < R) :
    ∫ q in Ioo 0 R, q ^ 3 * ((q ^ 2 + M)⁻¹ * (9 * π / 8)) = 9 * π / 16 * (R ^ 2 - M * Real.log (R ^ 2 + M) + M * Real.log M) := by
  have hc : Continuous fun q : ℝ => q ^ 3 * ((q ^ 2 + M)⁻¹ * (9 * π / 8)) := by
    have h3 : Continuous fun q : ℝ => (q ^ 2 + M)⁻¹ := Continuous.inv₀ (by fun_prop) fun q => by positivity
    fun_prop
  rw [← integral_Ioc_eq_integral_Ioo, ← intervalIntegral.integral_of_le hR.le]
  have d : ∀ q ∈ uIcc 0 R, HasDerivAt (fun q : ℝ => 9 * π / 16 * (q ^ 2 - M * Real.log (q ^ 2 + M))) (q ^ 3 * ((q ^ 2 + M)⁻¹ * (9 * π / 8))) q := fun q _ => by
    have h1 : HasDerivAt (fun q : ℝ => q ^ 2) (2 * q) q := by simpa using hasDerivAt_pow 2 q
    have h0 : q ^ 2 + M ≠ 0 := by positivity
    refine ((h1.sub (((h1.add_const M).log h0).const_mul M)).const_mul (9 * π / 16)).congr_deriv ?_
    field_simp
    ring
  rw [intervalIntegral.integral_eq_sub_of_hasDerivAt d (hc.intervalIntegrable _ _)]
  norm_num
  ring

end Qcd.Hyper
