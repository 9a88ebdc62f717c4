import Verif.Spec.FinitePart
import Mathlib.MeasureTheory.Integral.Bochner.Set
import Mathlib.Analysis.SpecialFunctions.Pow.Asymptotics

/-! # Finite parts: uniqueness, linearity -/

namespace Qcd
open MeasureTheory Filter Topology Spec

theorem tendsto_log_sq : Tendsto (fun x : ℝ => Real.log (x ^ 2)) atTop atTop :=
  Real.tendsto_log_atTop.comp (tendsto_pow_atTop two_ne_zero)

theorem log_div_sq : Tendsto (fun x : ℝ => Real.log (x ^ 2) / x ^ 2) atTop (𝓝 0) := by
  have h : Tendsto (fun y : ℝ => Real.log y / y) atTop (𝓝 0) := by
    have := Real.tendsto_pow_log_div_mul_add_atTop 1 0 1 one_ne_zero
    simpa using this
  exact h.comp (tendsto_pow_atTop two_ne_zero)

/-- A combination of the two divergences that has a limit vanishes. -/
theorem no_divergence {a b x : ℂ} (h : Tendsto (fun c : ℝ => a * (c ^ 2 : ℝ) + b * (Real.log (c ^ 2) : ℝ)) atTop (𝓝 x)) : a = 0 ∧ b = 0 ∧ x = 0 := by
  have cast0 : ∀ {f : ℝ → ℝ}, Tendsto f atTop (𝓝 0) → Tendsto (fun c => (f c : ℂ)) atTop (𝓝 0) := fun hf => by
    have := (Complex.continuous_ofReal.tendsto 0).comp hf
    simpa [Function.comp_def] using this
  have i2 : Tendsto (fun c : ℝ => (c ^ 2)⁻¹) atTop (𝓝 0) := tendsto_inv_atTop_zero.comp (tendsto_pow_atTop two_ne_zero)
  have il : Tendsto (fun c : ℝ => (Real.log (c ^ 2))⁻¹) atTop (𝓝 0) := tendsto_inv_atTop_zero.comp tendsto_log_sq
  have ha : a = 0 := by
    have h1 := h.mul (cast0 i2)
    have h2 : Tendsto (fun c : ℝ => a + b * ((Real.log (c ^ 2) / c ^ 2 : ℝ) : ℂ)) atTop (𝓝 (a + b * 0)) :=
      tendsto_const_nhds.add ((cast0 log_div_sq).const_mul b)
    rw [mul_zero] at h1
    rw [mul_zero, add_zero] at h2
    refine tendsto_nhds_unique (h2.congr' ?_) h1
    filter_upwards [eventually_gt_atTop 0] with c hc
    have : (c : ℂ) ≠ 0 := by exact_mod_cast hc.ne'
    push_cast
    field_simp
  subst ha
  simp only [zero_mul, zero_add] at h
  have hb : b = 0 := by
    have h1 := h.mul (cast0 il)
    rw [mul_zero] at h1
    refine tendsto_nhds_unique (tendsto_const_nhds.congr' ?_) h1
    filter_upwards [tendsto_log_sq.eventually_gt_atTop 0] with c hc
    have : ((Real.log (c ^ 2) : ℝ) : ℂ) ≠ 0 := by exact_mod_cast hc.ne'
    push_cast at this ⊢
    field_simp
  subst hb
  simp only [zero_mul] at h
  exact ⟨rfl, rfl, (tendsto_nhds_unique tendsto_const_nhds h).symm⟩

theorem Spec.IsFinitePart.unique {F : Vec → ℂ} {x y : ℂ} (hx : IsFinitePart F x) (hy : IsFinitePart F y) : x = y := by
  obtain ⟨a, b, h1⟩ := hx.limit
  obtain ⟨a', b', h2⟩ := hy.limit
  have h3 : Tendsto (fun c : ℝ => (a' - a) * (c ^ 2 : ℝ) + (b' - b) * (Real.log (c ^ 2) : ℝ)) atTop (𝓝 (x - y)) := by
    refine (h1.sub h2).congr fun c => ?_
    ring
  exact sub_eq_zero.1 (no_divergence h3).2.2

theorem cutoff_congr {F G : Vec → ℂ} (h : ∀ᵐ Q : Momentum, F (vec Q) = G (vec Q)) (c : ℝ) : cutoffIntegral F c = cutoffIntegral G c := by
  rw [cutoffIntegral, cutoffIntegral, setIntegral_congr_ae measurableSet_ball (h.mono fun Q hQ _ => hQ)]

theorem Spec.IsFinitePart.add {F G : Vec → ℂ} {x y : ℂ} (hx : IsFinitePart F x) (hy : IsFinitePart G y) : IsFinitePart (fun Q => F Q + G Q) (x + y) := by
  obtain ⟨a, b, h1⟩ := hx.limit
  obtain ⟨a', b', h2⟩ := hy.limit
  refine ⟨fun c => (hx.converges c).add (hy.converges c), a + a', b + b', (h1.add h2).congr fun c => ?_⟩
  rw [cutoffIntegral, cutoffIntegral, cutoffIntegral, integral_add (hx.converges c) (hy.converges c)]
  ring

theorem Spec.IsFinitePart.const_mul {F : Vec → ℂ} {x : ℂ} (hx : IsFinitePart F x) (k : ℂ) : IsFinitePart (fun Q => k * F Q) (k * x) := by
  obtain ⟨a, b, h1⟩ := hx.limit
  refine ⟨fun c => (hx.converges c).const_mul k, k * a, k * b, (h1.const_mul k).congr fun c => ?_⟩
  rw [cutoffIntegral, cutoffIntegral, integral_const_mul]
  ring

theorem Spec.IsFinitePart.zero : IsFinitePart (fun _ => 0) 0 :=
  ⟨fun c => integrableOn_zero, 0, 0, by simp [cutoffIntegral]⟩

theorem Spec.IsFinitePart.average {F : Vec → Vec → ℂ} {x : ℂ} {l : List Vec} (hl : l ≠ []) (h : ∀ e ∈ l, IsFinitePart (F e) x) :
    IsFinitePart (fun Q => Spec.average l fun e => F e Q) x := by
  have hs : ∀ l : List Vec, (∀ e ∈ l, IsFinitePart (F e) x) → IsFinitePart (fun Q => (l.map fun e => F e Q).sum) (l.length * x) := fun l => by
    induction l with
    | nil => intro _; simpa using Spec.IsFinitePart.zero
    | cons e l ih =>
      intro h
      have := (h e List.mem_cons_self).add (ih fun e' he' => h e' (List.mem_cons_of_mem _ he'))
      simp only [List.map_cons, List.sum_cons, List.length_cons]
      convert this using 1
      push_cast
      ring
  have h0 : (l.length : ℂ) ≠ 0 := by
    have : 0 < l.length := List.length_pos_iff.2 hl
    exact_mod_cast this.ne'
  have h1 := (hs l h).const_mul (l.length : ℂ)⁻¹
  rw [inv_mul_cancel_left₀ h0] at h1
  simpa only [Spec.average, div_eq_inv_mul] using h1

/-- A real diagram, almost everywhere equal to its closed form, with a known asymptotic behaviour. -/
theorem isFinitePart_real {F : Vec → ℂ} {f : Momentum → ℝ} (h : ∀ᵐ Q : Momentum, F (vec Q) = (f Q : ℂ))
    (hi : ∀ c : ℝ, IntegrableOn f (Metric.ball 0 c)) {x a b : ℝ} {I : ℝ → ℝ} (hI : ∀ᶠ c in atTop, ∫ Q in Metric.ball (0 : Momentum) c, f Q = I c)
    (hl : Tendsto (fun c : ℝ => 1 / (2 * Real.pi) ^ 4 * I c - (a * c ^ 2 + b * Real.log (c ^ 2))) atTop (𝓝 x)) : IsFinitePart F x := by
  refine ⟨fun c => ?_, a, b, ?_⟩
  · exact ((hi c).ofReal (𝕜 := ℂ)).congr (ae_restrict_of_ae (h.mono fun Q hQ => hQ.symm))
  · refine ((Complex.continuous_ofReal.tendsto x).comp hl).congr' ?_
    filter_upwards [hI] with c hc
    rw [cutoffIntegral, setIntegral_congr_ae measurableSet_ball (h.mono fun Q hQ _ => hQ), integral_complex_ofReal, hc, Function.comp_apply]
    push_cast
    ring

end Qcd
