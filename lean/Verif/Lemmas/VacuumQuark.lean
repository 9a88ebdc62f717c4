import Verif.Lemmas.VacuumGluon
import Verif.Lemmas.QuarkRadial
import Verif.Lemmas.DiracTrace

/-! # The quark loop in vacuum, over a ball -/

namespace Qcd.Hyper
open MeasureTheory Set Spec Matrix GluonRadial
open scoped Real RealInnerProductSpace

/-! ### Homogeneous diagrams -/

/-- A diagram of degree zero: what is needed of it, and of its integral over the angle with unit mass. -/
structure Homogeneous (f : ℝ → ℝ → ℝ → ℝ → ℝ → ℝ) (A : ℝ → ℝ → ℝ) : Prop where
  averaged : ∀ {M : ℝ}, 0 < M → ∀ a, Averaged (f M (a ^ 2)) a
  scale : ∀ {k : ℝ}, k ≠ 0 → ∀ s x y v, f k (k * s) (k * x) (k * y) (k * v) = k⁻¹ * f 1 s x y v
  continuous : ∀ {a : ℝ}, 0 < a → Continuous fun q => q ^ 3 * A a q
  angle : ∀ {a q : ℝ}, 0 < a → 0 < q → q ≠ a → IntegrableOn (fun t => Real.sin t ^ 2 * onAxis (f 1 (a ^ 2)) a (polar (q, t))) (Ioo 0 π) ∧
      ∫ t in Ioo 0 π, Real.sin t ^ 2 * onAxis (f 1 (a ^ 2)) a (polar (q, t)) = A a q

theorem Homogeneous.ball {f : ℝ → ℝ → ℝ → ℝ → ℝ → ℝ} {A : ℝ → ℝ → ℝ} (h : Homogeneous f A) {P e : E4} (hP : P ≠ 0) (he : ‖e‖ = 1)
    (ho : (⟪e, P⟫ : ℝ) = 0) {M : ℝ} (hM : 0 < M) (R : ℝ) :
    IntegrableOn (scalar (f M (‖P‖ ^ 2)) e P) (Metric.ball 0 R) ∧
      ∫ Q in Metric.ball (0 : E4) R, scalar (f M (‖P‖ ^ 2)) e P Q = 4 * π * ∫ q in Ioo 0 R, q ^ 3 * (M⁻¹ * A (‖P‖ / √M) (q / √M)) := by
  have hn : 0 < ‖P‖ := norm_pos_iff.2 hP
  have hr : 0 < √M := Real.sqrt_pos.2 hM
  have hrM : √M ^ 2 = M := Real.sq_sqrt hM.le
  have ha : 0 < ‖P‖ / √M := by positivity
  have hav := h.averaged hM ‖P‖
  have eq : ∀ q t : ℝ, Real.sin t ^ 2 * onAxis (f M (‖P‖ ^ 2)) ‖P‖ (polar (q, t)) =
      M⁻¹ * (Real.sin t ^ 2 * onAxis (f 1 ((‖P‖ / √M) ^ 2)) (‖P‖ / √M) (polar (q / √M, t))) := fun q t => by
    obtain ⟨b, hb⟩ : ∃ b, b = ‖P‖ / √M := ⟨_, rfl⟩
    obtain ⟨z, hz⟩ : ∃ z, z = q / √M := ⟨_, rfl⟩
    rw [← hb, ← hz, show ‖P‖ = √M * b by rw [hb, mul_div_cancel₀ _ hr.ne'], show q = √M * z by rw [hz, mul_div_cancel₀ _ hr.ne']]
    have : onAxis (f M ((√M * b) ^ 2)) (√M * b) (polar (√M * z, t)) = M⁻¹ * onAxis (f 1 (b ^ 2)) b (polar (z, t)) := by
      unfold onAxis
      rw [← h.scale hM.ne']
      simp only [polar]
      congr 1 <;> rw [← hrM] <;> ring_nf <;> rw [Real.sqrt_sq hr.le] <;> ring
    rw [this]
    ring
  have hcont : Continuous fun q : ℝ => q ^ 3 * (M⁻¹ * A (‖P‖ / √M) (q / √M)) := by
    have e : ∀ q : ℝ, q ^ 3 * (M⁻¹ * A (‖P‖ / √M) (q / √M)) = √M * ((q / √M) ^ 3 * A (‖P‖ / √M) (q / √M)) := fun q => by
      generalize A (‖P‖ / √M) (q / √M) = g
      rw [show M⁻¹ = (√M ^ 2)⁻¹ by rw [hrM]]
      field_simp
    simp only [e]
    exact continuous_const.mul ((h.continuous ha).comp (continuous_id.div_const √M))
  have hax := ball_axis (measurable_onAxis hav.measurable ‖P‖) (fun u => hav.nonneg u _ (by positivity)) (a := ‖P‖) (R := R)
    (A := fun q => M⁻¹ * A (‖P‖ / √M) (q / √M)) (fun q hq hne => by
      simp only [eq]
      exact (h.angle ha (by positivity) (fun h => hne ((div_left_inj' hr.ne').1 h))).1.const_mul _) (fun q hq hne => by
      simp only [eq]
      rw [integral_const_mul, (h.angle ha (by positivity) (fun h => hne ((div_left_inj' hr.ne').1 h))).2])
    ((hcont.integrableOn_Icc).mono_set Ioo_subset_Icc_self)
  obtain ⟨h1, h2⟩ := ball_pol hP he ho hav hax.1
  exact ⟨h1, h2.trans hax.2⟩

theorem radial_scale (A : ℝ → ℝ) {M R : ℝ} (hM : 0 < M) (hR : 0 < R) :
    ∫ q in Ioo 0 R, q ^ 3 * (M⁻¹ * A (q / √M)) = M * ∫ q in Ioo 0 (R / √M), q ^ 3 * A q := by
  have hr : 0 < √M := Real.sqrt_pos.2 hM
  have hrM : √M ^ 2 = M := Real.sq_sqrt hM.le
  rw [← integral_Ioc_eq_integral_Ioo, ← integral_Ioc_eq_integral_Ioo, ← intervalIntegral.integral_of_le hR.le,
    ← intervalIntegral.integral_of_le (by positivity)]
  have e : ∀ q : ℝ, q ^ 3 * (M⁻¹ * A (q / √M)) = √M * ((q / √M) ^ 3 * A (q / √M)) := fun q => by
    generalize A (q / √M) = g
    rw [show M⁻¹ = (√M ^ 2)⁻¹ by rw [hrM]]
    field_simp
  simp only [e]
  rw [intervalIntegral.integral_const_mul, intervalIntegral.integral_comp_div (fun q => q ^ 3 * A q) hr.ne', smul_eq_mul, zero_div,
    ← mul_assoc, ← sq, hrM]

/-! ### The massive line with two sines -/

theorem sin2_small {r : ℝ} (h0 : 0 ≤ r) (h1 : r < 1) :
    ∫ t in (0 : ℝ)..π, Real.sin t ^ 2 * (1 + r ^ 2 + 2 * r * Real.cos t)⁻¹ = π / 2 := by
  rcases h0.eq_or_lt with rfl | h
  · have : ∀ t : ℝ, Real.sin t ^ 2 * (1 + (0 : ℝ) ^ 2 + 2 * 0 * Real.cos t)⁻¹ = Real.sin t ^ 2 := fun t => by norm_num
    simp only [this]
    exact sin2_int
  have hr : 1 - r ^ 2 ≠ 0 := by nlinarith
  have key : ∀ t : ℝ, Real.sin t ^ 2 * (1 + r ^ 2 + 2 * r * Real.cos t)⁻¹ =
      (-(1 / (2 * r))) * Real.cos t + (1 + r ^ 2) / (4 * r ^ 2) + (-(1 - r ^ 2) ^ 2 / (4 * r ^ 2)) * (1 + r ^ 2 + 2 * r * Real.cos t)⁻¹ := fun t => by
    have hq := cos_den_pos h0 h1 t
    rw [Real.sin_sq]
    generalize Real.cos t = c at *
    obtain ⟨d, hd⟩ : ∃ d, d = 1 + r ^ 2 + 2 * r * c := ⟨_, rfl⟩
    have hd0 : d ≠ 0 := hd ▸ hq.ne'
    rw [← hd]
    obtain rfl : c = (d - 1 - r ^ 2) / (2 * r) := by rw [hd]; field_simp; ring
    field_simp
    ring
  simp only [key]
  have c : Continuous fun t => (1 + r ^ 2 + 2 * r * Real.cos t)⁻¹ := Continuous.inv₀ (by fun_prop) fun t => (cos_den_pos h0 h1 t).ne'
  rw [intervalIntegral.integral_add (Continuous.intervalIntegrable (by fun_prop) _ _) (Continuous.intervalIntegrable (by fun_prop) _ _),
    intervalIntegral.integral_add (Continuous.intervalIntegrable (by fun_prop) _ _) (Continuous.intervalIntegrable (by fun_prop) _ _),
    intervalIntegral.integral_const_mul, intervalIntegral.integral_const_mul, intervalIntegral.integral_const, poisson h0 h1, cos_int]
  simp only [smul_eq_mul]
  field_simp
  ring

theorem sin2_mass {a q : ℝ} (ha : 0 < a) (hq : 0 < q) :
    ∫ t in (0 : ℝ)..π, Real.sin t ^ 2 * (q ^ 2 + a ^ 2 + 2 * a * q * Real.cos t + 1)⁻¹ = π / 2 * w2 (a ^ 2) (q ^ 2) := by
  have hs : 0 < a ^ 2 := by positivity
  have ht := sg_pos hs (q ^ 2)
  have hx := x_eq hs (q ^ 2)
  rw [w2]
  have h0 : 0 < q ^ 2 := by positivity
  generalize sg (a ^ 2) (q ^ 2) = t at *
  have hp : 0 < t + a ^ 2 := by positivity
  have h1 : (q ^ 2) * t = (t - 1) * (t + a ^ 2) := by rw [hx]; field_simp
  have hr : a * q / (t + a ^ 2) < 1 := by
    rw [div_lt_one hp, ← sq_lt_sq₀ (by positivity) (by positivity)]
    have : (a * q) ^ 2 * t < (t + a ^ 2) ^ 2 * t := by
      have e : (a * q) ^ 2 * t = a ^ 2 * ((t - 1) * (t + a ^ 2)) := by rw [← h1]; ring
      rw [e]
      nlinarith [mul_pos ht hp, mul_pos hs hp, mul_pos (mul_pos ht ht) hp]
    exact lt_of_mul_lt_mul_right this ht.le
  have e : ∀ c : ℝ, (q ^ 2 + a ^ 2 + 2 * a * q * c + 1)⁻¹ =
      (t + a ^ 2)⁻¹ * (1 + (a * q / (t + a ^ 2)) ^ 2 + 2 * (a * q / (t + a ^ 2)) * c)⁻¹ := fun c => by
    rw [← mul_inv]
    congr 1
    have : q ^ 2 = (t - 1) * (t + a ^ 2) / t := hx
    have e2 : (a * q / (t + a ^ 2)) ^ 2 = a ^ 2 * ((t - 1) / (t * (t + a ^ 2))) := by
      rw [div_pow, mul_pow, this]
      field_simp
    rw [e2, this]
    field_simp
    ring
  simp only [e]
  have e3 : ∀ x : ℝ, Real.sin x ^ 2 * ((t + a ^ 2)⁻¹ * (1 + (a * q / (t + a ^ 2)) ^ 2 + 2 * (a * q / (t + a ^ 2)) * Real.cos x)⁻¹) =
      (t + a ^ 2)⁻¹ * (Real.sin x ^ 2 * (1 + (a * q / (t + a ^ 2)) ^ 2 + 2 * (a * q / (t + a ^ 2)) * Real.cos x)⁻¹) := fun x => by ring
  simp only [e3]
  rw [intervalIntegral.integral_const_mul, sin2_small (by positivity) hr]
  ring

/-! ### The quark loop -/

/-- The quark loop, as a function of the scalar products: the terms with two lines, and the ones with one. -/
noncomputable def quA (M s x y v : ℝ) : ℝ := (2 * v + s / 2) / ((x + M) * (y + M))
noncomputable def quB (M _s x y _v : ℝ) : ℝ := ((x + M)⁻¹ + (y + M)⁻¹) / 2

theorem quark_vec {g : Fin 4 → Matrix (Fin 4) (Fin 4) ℂ} (hg : IsClifford g) (nc : ℝ) {P e : E4} (he : ‖e‖ = 1) (ho : (⟪e, P⟫ : ℝ) = 0) {m : ℝ}
    (hm : m ≠ 0) (Q : E4) : quarkDiagram g nc (vec e) (vec P) m (vec Q) =
      ((-(2 / nc) * (scalar (quA (m ^ 2) (‖P‖ ^ 2)) e P Q - scalar (quB (m ^ 2) (‖P‖ ^ 2)) e P Q) : ℝ) : ℂ) := by
  have h1 : vec e ⬝ᵥ vec e = 1 := by rw [vec_dot, real_inner_self_eq_norm_sq, he]; norm_num
  have h2 : vec e ⬝ᵥ vec P = 0 := by rw [vec_dot, ho]; norm_num
  have a1 : ‖Q‖ ^ 2 + m ^ 2 ≠ 0 := by positivity
  have a2 : ‖P + Q‖ ^ 2 + m ^ 2 ≠ 0 := by positivity
  have h3 : msq (vec Q) + (m : ℂ) ^ 2 ≠ 0 := by
    rw [vec_msq]
    exact_mod_cast a1
  have h4 : msq (vec P + vec Q) + (m : ℂ) ^ 2 ≠ 0 := by
    rw [vec_add, vec_msq]
    exact_mod_cast a2
  rw [quarkDiagram_closed hg nc h1 h2 h3 h4, vec_add, vec_msq, vec_msq, vec_msq, vec_dot, scalar, scalar, quA, quB]
  have e' : (‖Q‖ ^ 2 + ‖P + Q‖ ^ 2 - ‖P‖ ^ 2) / 2 + m ^ 2 = ((‖Q‖ ^ 2 + m ^ 2) + (‖P + Q‖ ^ 2 + m ^ 2) - ‖P‖ ^ 2) / 2 := by ring
  have key : -(2 / nc) * (2 * ⟪e, Q⟫ ^ 2 - ((‖Q‖ ^ 2 + ‖P + Q‖ ^ 2 - ‖P‖ ^ 2) / 2 + m ^ 2)) / ((‖Q‖ ^ 2 + m ^ 2) * (‖P + Q‖ ^ 2 + m ^ 2)) =
      -(2 / nc) * ((2 * ⟪e, Q⟫ ^ 2 + ‖P‖ ^ 2 / 2) / ((‖Q‖ ^ 2 + m ^ 2) * (‖P + Q‖ ^ 2 + m ^ 2)) - ((‖Q‖ ^ 2 + m ^ 2)⁻¹ + (‖P + Q‖ ^ 2 + m ^ 2)⁻¹) / 2) := by
    rw [e']
    generalize ‖Q‖ ^ 2 + m ^ 2 = x at *
    generalize ‖P + Q‖ ^ 2 + m ^ 2 = y at *
    generalize 2 / nc = c
    field_simp
    ring
  rw [← key]
  push_cast
  ring

theorem axis_nonneg (a : ℝ) (u : ℝ × ℝ) : 0 ≤ u.1 ^ 2 + u.2 ^ 2 + a ^ 2 + 2 * a * u.1 := by nlinarith [sq_nonneg (u.1 + a), sq_nonneg u.2]

theorem quA_homogeneous : Homogeneous quA quAngleA where
  averaged := fun {M} hM a =>
    { measurable := by unfold quA; fun_prop
      nonneg := fun u v hv => by
        have := axis_nonneg a u
        unfold quA
        positivity
      affine := fun x y v1 v2 v3 => by unfold quA; ring }
  scale := fun {k} hk s x y v => by
    have h2 : k * x + k = k * (x + 1) := by ring
    have h3 : k * y + k = k * (y + 1) := by ring
    unfold quA
    rw [h2, h3]
    simp only [div_eq_mul_inv, mul_inv]
    generalize (x + 1)⁻¹ = a
    generalize (y + 1)⁻¹ = b
    field_simp
  continuous := fun ha => (continuous_pow 3).mul (continuous_quAngle ha).1
  angle := fun {a q} ha hq hne => by
    have e : ∀ t, Real.sin t ^ 2 * onAxis (quA 1 (a ^ 2)) a (polar (q, t)) =
        (q ^ 2 + 1)⁻¹ * (2 / 3 * q ^ 2 * (Real.sin t ^ 4 * (q ^ 2 + a ^ 2 + 2 * a * q * Real.cos t + 1)⁻¹)
          + a ^ 2 / 2 * (Real.sin t ^ 2 * (q ^ 2 + a ^ 2 + 2 * a * q * Real.cos t + 1)⁻¹)) := fun t => by
      rw [onAxis, polar_sq]
      simp only [polar, quA]
      rw [← mul_assoc (2 * a) q, div_eq_mul_inv, mul_inv]
      ring
    have c : Continuous fun t => (q ^ 2 + a ^ 2 + 2 * a * q * Real.cos t + 1)⁻¹ := Continuous.inv₀ (by fun_prop) fun t => by
      have := den_pos ha hq hne t
      positivity
    simp only [e]
    refine ⟨(Continuous.integrableOn_Icc (by fun_prop)).mono_set Ioo_subset_Icc_self, ?_⟩
    rw [← integral_Ioc_eq_integral_Ioo, ← intervalIntegral.integral_of_le Real.pi_pos.le, intervalIntegral.integral_const_mul,
      intervalIntegral.integral_add (Continuous.intervalIntegrable (by fun_prop) _ _) (Continuous.intervalIntegrable (by fun_prop) _ _),
      intervalIntegral.integral_const_mul, intervalIntegral.integral_const_mul, sin4_mass ha hq, sin2_mass ha hq, quAngleA]
    ring

theorem quB_homogeneous : Homogeneous quB quAngleB where
  averaged := fun {M} hM a =>
    { measurable := by unfold quB; fun_prop
      nonneg := fun u v hv => by
        have := axis_nonneg a u
        unfold quB
        positivity
      affine := fun x y v1 v2 v3 => by unfold quB; ring }
  scale := fun {k} hk s x y v => by
    have h2 : k * x + k = k * (x + 1) := by ring
    have h3 : k * y + k = k * (y + 1) := by ring
    unfold quB
    rw [h2, h3, mul_inv, mul_inv]
    ring
  continuous := fun ha => (continuous_pow 3).mul (continuous_quAngle ha).2
  angle := fun {a q} ha hq hne => by
    have e : ∀ t, Real.sin t ^ 2 * onAxis (quB 1 (a ^ 2)) a (polar (q, t)) =
        (q ^ 2 + 1)⁻¹ / 2 * Real.sin t ^ 2 + 1 / 2 * (Real.sin t ^ 2 * (q ^ 2 + a ^ 2 + 2 * a * q * Real.cos t + 1)⁻¹) := fun t => by
      rw [onAxis, polar_sq]
      simp only [polar, quB]
      rw [← mul_assoc (2 * a) q]
      ring
    have c : Continuous fun t => (q ^ 2 + a ^ 2 + 2 * a * q * Real.cos t + 1)⁻¹ := Continuous.inv₀ (by fun_prop) fun t => by
      have := den_pos ha hq hne t
      positivity
    simp only [e]
    refine ⟨(Continuous.integrableOn_Icc (by fun_prop)).mono_set Ioo_subset_Icc_self, ?_⟩
    rw [← integral_Ioc_eq_integral_Ioo, ← intervalIntegral.integral_of_le Real.pi_pos.le,
      intervalIntegral.integral_add (Continuous.intervalIntegrable (by fun_prop) _ _) (Continuous.intervalIntegrable (by fun_prop) _ _),
      intervalIntegral.integral_const_mul, intervalIntegral.integral_const_mul, sin2_int, sin2_mass ha hq, quAngleB]
    ring

/-- The quark loop over a ball. -/
theorem ball_quark {P e : E4} (hP : P ≠ 0) (he : ‖e‖ = 1) (ho : (⟪e, P⟫ : ℝ) = 0) {M : ℝ} (hM : 0 < M) :
    (∀ R, IntegrableOn (fun Q => scalar (quA M (‖P‖ ^ 2)) e P Q - scalar (quB M (‖P‖ ^ 2)) e P Q) (Metric.ball 0 R)) ∧
      ∀ R, 0 < R → ∫ Q in Metric.ball (0 : E4) R, (scalar (quA M (‖P‖ ^ 2)) e P Q - scalar (quB M (‖P‖ ^ 2)) e P Q) =
        π ^ 2 / 2 * (M * (KQ (‖P‖ ^ 2 / M) (R ^ 2 / M) - KQ (‖P‖ ^ 2 / M) 0)) := by
  have hn : 0 < ‖P‖ := norm_pos_iff.2 hP
  have hr : 0 < √M := Real.sqrt_pos.2 hM
  have hrM : √M ^ 2 = M := Real.sq_sqrt hM.le
  have ha : 0 < ‖P‖ / √M := by positivity
  have hA := fun R => quA_homogeneous.ball hP he ho hM R
  have hB := fun R => quB_homogeneous.ball hP he ho hM R
  refine ⟨fun R => (hA R).1.sub (hB R).1, fun R hR => ?_⟩
  obtain ⟨c1, c2⟩ := continuous_quAngle ha
  rw [integral_sub (hA R).1 (hB R).1, (hA R).2, (hB R).2, radial_scale _ hM hR, radial_scale _ hM hR]
  have i1 : IntegrableOn (fun q => q ^ 3 * quAngleA (‖P‖ / √M) q) (Ioo 0 (R / √M)) :=
    (Continuous.integrableOn_Icc (by fun_prop)).mono_set Ioo_subset_Icc_self
  have i2 : IntegrableOn (fun q => q ^ 3 * quAngleB (‖P‖ / √M) q) (Ioo 0 (R / √M)) :=
    (Continuous.integrableOn_Icc (by fun_prop)).mono_set Ioo_subset_Icc_self
  have h := quark_radial (a := ‖P‖ / √M) (R := R / √M) ha (by positivity)
  simp only [mul_sub] at h
  rw [integral_sub i1 i2, div_pow, div_pow, hrM] at h
  linear_combination 4 * π * M * h

/-! ### The quark loop at zero momentum -/

noncomputable def quZA (M x _y v : ℝ) : ℝ := 2 * v / (x + M) ^ 2
noncomputable def quZB (M x _y _v : ℝ) : ℝ := (x + M)⁻¹

theorem quark_vec_zero {g : Fin 4 → Matrix (Fin 4) (Fin 4) ℂ} (hg : IsClifford g) (nc : ℝ) {e : E4} (P : E4) (he : ‖e‖ = 1) {m : ℝ}
    (hm : m ≠ 0) (Q : E4) : quarkDiagram g nc (vec e) 0 m (vec Q) =
      ((-(2 / nc) * (scalar (quZA (m ^ 2)) e P Q - scalar (quZB (m ^ 2)) e P Q) : ℝ) : ℂ) := by
  have h1 : vec e ⬝ᵥ vec e = 1 := by rw [vec_dot, real_inner_self_eq_norm_sq, he]; norm_num
  have a1 : ‖Q‖ ^ 2 + m ^ 2 ≠ 0 := by positivity
  have h3 : msq (vec Q) + (m : ℂ) ^ 2 ≠ 0 := by
    rw [vec_msq]
    exact_mod_cast a1
  have h5 : msq (0 : Vec) = 0 := by simp [msq]
  rw [quarkDiagram_closed hg nc h1 (dotProduct_zero _) h3 (by rwa [zero_add]), zero_add, h5, vec_msq, vec_dot, scalar, scalar, quZA, quZB]
  have key : -(2 / nc) * (2 * ⟪e, Q⟫ ^ 2 - ((‖Q‖ ^ 2 + ‖Q‖ ^ 2 - 0) / 2 + m ^ 2)) / ((‖Q‖ ^ 2 + m ^ 2) * (‖Q‖ ^ 2 + m ^ 2)) =
      -(2 / nc) * (2 * ⟪e, Q⟫ ^ 2 / (‖Q‖ ^ 2 + m ^ 2) ^ 2 - (‖Q‖ ^ 2 + m ^ 2)⁻¹) := by
    have e : (‖Q‖ ^ 2 + ‖Q‖ ^ 2 - 0) / 2 + m ^ 2 = ‖Q‖ ^ 2 + m ^ 2 := by ring
    rw [e]
    generalize ‖Q‖ ^ 2 + m ^ 2 = x at *
    generalize 2 / nc = c
    field_simp
  rw [← key]
  push_cast
  ring

theorem ball_quark_zero {P e : E4} (hP : P ≠ 0) (he : ‖e‖ = 1) (ho : (⟪e, P⟫ : ℝ) = 0) {M : ℝ} (hM : 0 < M) :
    (∀ R, IntegrableOn (fun Q => scalar (quZA M) e P Q - scalar (quZB M) e P Q) (Metric.ball 0 R)) ∧
      ∀ R, 0 < R → ∫ Q in Metric.ball (0 : E4) R, (scalar (quZA M) e P Q - scalar (quZB M) e P Q) =
        π ^ 2 / 2 * (M - R ^ 2 - M ^ 2 / (R ^ 2 + M)) := by
  have avA : Averaged (quZA M) ‖P‖ :=
    { measurable := by unfold quZA; fun_prop
      nonneg := fun u v hv => by unfold quZA; positivity
      affine := fun x y v1 v2 v3 => by unfold quZA; ring }
  have avB : Averaged (quZB M) ‖P‖ :=
    { measurable := by unfold quZB; fun_prop
      nonneg := fun u v hv => by unfold quZB; positivity
      affine := fun x y v1 v2 v3 => by unfold quZB; ring }
  have pA : ∀ q t : ℝ, Real.sin t ^ 2 * onAxis (quZA M) ‖P‖ (polar (q, t)) = 2 / 3 * q ^ 2 * ((q ^ 2 + M)⁻¹ ^ 2) * Real.sin t ^ 4 := fun q t => by
    rw [onAxis, polar_sq]
    simp only [polar, quZA]
    rw [div_eq_mul_inv, inv_pow]
    ring
  have pB : ∀ q t : ℝ, Real.sin t ^ 2 * onAxis (quZB M) ‖P‖ (polar (q, t)) = (q ^ 2 + M)⁻¹ * Real.sin t ^ 2 := fun q t => by
    rw [onAxis, polar_sq]
    simp only [polar, quZB]
    ring
  have ci : Continuous fun q : ℝ => (q ^ 2 + M)⁻¹ := Continuous.inv₀ (by fun_prop) fun q => by positivity
  have hA := fun R => ball_axis (measurable_onAxis avA.measurable ‖P‖) (fun u => avA.nonneg u _ (by positivity)) (a := ‖P‖) (R := R)
    (A := fun q => 2 / 3 * q ^ 2 * ((q ^ 2 + M)⁻¹ ^ 2) * (3 * π / 8)) (fun q hq hne => by
      simp only [pA]
      exact (Continuous.integrableOn_Icc (by fun_prop)).mono_set Ioo_subset_Icc_self) (fun q hq hne => by
      simp only [pA]
      rw [integral_const_mul, ← integral_Ioc_eq_integral_Ioo, ← intervalIntegral.integral_of_le Real.pi_pos.le, sin4_int])
    ((Continuous.integrableOn_Icc (by fun_prop)).mono_set Ioo_subset_Icc_self)
  have hB := fun R => ball_axis (measurable_onAxis avB.measurable ‖P‖) (fun u => avB.nonneg u _ (by positivity)) (a := ‖P‖) (R := R)
    (A := fun q => (q ^ 2 + M)⁻¹ * (π / 2)) (fun q hq hne => by
      simp only [pB]
      exact (Continuous.integrableOn_Icc (by fun_prop)).mono_set Ioo_subset_Icc_self) (fun q hq hne => by
      simp only [pB]
      rw [integral_const_mul, ← integral_Ioc_eq_integral_Ioo, ← intervalIntegral.integral_of_le Real.pi_pos.le, sin2_int])
    ((Continuous.integrableOn_Icc (by fun_prop)).mono_set Ioo_subset_Icc_self)
  have bA := fun R => ball_pol hP he ho avA (hA R).1
  have bB := fun R => ball_pol hP he ho avB (hB R).1
  refine ⟨fun R => (bA R).1.sub (bB R).1, fun R hR => ?_⟩
  rw [integral_sub (bA R).1 (bB R).1, (bA R).2, (bB R).2, (hA R).2, (hB R).2, ← mul_sub, ← integral_sub
    ((Continuous.integrableOn_Icc (by fun_prop)).mono_set Ioo_subset_Icc_self) ((Continuous.integrableOn_Icc (by fun_prop)).mono_set Ioo_subset_Icc_self),
    ← integral_Ioc_eq_integral_Ioo, ← intervalIntegral.integral_of_le hR.le]
  have d : ∀ q ∈ uIcc 0 R, HasDerivAt (fun q : ℝ => π / 8 * (-q ^ 2 - M ^ 2 * (q ^ 2 + M)⁻¹))
      (q ^ 3 * (2 / 3 * q ^ 2 * ((q ^ 2 + M)⁻¹ ^ 2) * (3 * π / 8)) - q ^ 3 * ((q ^ 2 + M)⁻¹ * (π / 2))) q := fun q _ => by
    have h1 : HasDerivAt (fun q : ℝ => q ^ 2) (2 * q) q := by simpa using hasDerivAt_pow 2 q
    have h0 : q ^ 2 + M ≠ 0 := by positivity
    refine ((h1.neg.sub (((h1.add_const M).fun_inv h0).const_mul (M ^ 2))).const_mul (π / 8)).congr_deriv ?_
    field_simp
    ring
  rw [intervalIntegral.integral_eq_sub_of_hasDerivAt d (Continuous.intervalIntegrable (by fun_prop) _ _)]
  have h0 : R ^ 2 + M ≠ 0 := by positivity
  field_simp
  ring

end Qcd.Hyper
