import Verif.Spec.Positive
import Verif.Props.LowTemperature
import Verif.Props.ThermalReal
import Verif.Props.EuclideanQuarks

/-! # C117: at low temperature the thermal propagators exist and are positive

Below a temperature that depends on the momentum, the masses and the constants, the thermal dressing functions and propagators in the Landau
gauge have no pole at the given Euclidean frequency and momentum and are positive real numbers, for every value of the additive constants for which
C107 excludes poles of the vacuum propagators. -/

namespace Qcd
open consts (Consts Integral)
open Filter Topology Real

theorem positive_inv {z : ℂ} (h : Spec.Positive z) : Spec.Positive z⁻¹ := by
  obtain ⟨r, hr, rfl⟩ := h
  exact ⟨r⁻¹, inv_pos.2 hr, by push_cast; rfl⟩

theorem positive_mul {a : ℝ} (ha : 0 < a) {z : ℂ} (h : Spec.Positive z) : Spec.Positive ((a : ℂ)⁻¹ * z⁻¹) := by
  obtain ⟨r, hr, rfl⟩ := h
  exact ⟨a⁻¹ * r⁻¹, by positivity, by push_cast; rfl⟩

/-- A function that is real and tends to a positive number is positive in the end. -/
theorem eventually_positive {f : ℝ → ℂ} {V : ℝ} (hf : Tendsto f atTop (𝓝 (V : ℂ))) (hV : 0 < V) (hi : ∀ b, 0 < b → (f b).im = 0) :
    ∀ᶠ b in atTop, Spec.Positive (f b) := by
  have h1 : Tendsto (fun b => (f b).re) atTop (𝓝 V) := by
    have := (Complex.continuous_re.tendsto (V : ℂ)).comp hf
    simpa [Function.comp_def] using this
  filter_upwards [h1.eventually (lt_mem_nhds hV), eventually_gt_atTop 0] with b hb h0
  exact ⟨(f b).re, hb, Complex.ext (by simp) (by simp [hi b h0])⟩

theorem eventually_low {P : ℝ → Prop} (h : ∀ᶠ b in atTop, P b) : ∃ T0 : ℝ, 0 < T0 ∧ ∀ T : ℝ, 0 < T → T < T0 → P (1 / T) := by
  obtain ⟨B, hB⟩ := eventually_atTop.1 (h.and (eventually_gt_atTop 0))
  refine ⟨1 / max B 1, by positivity, fun T h0 h1 => (hB _ ?_).1⟩
  have : max B 1 < 1 / T := by rwa [lt_one_div (by positivity) h0]
  exact (le_max_left _ _).trans this.le


theorem vacuum_ym {f0 : ℝ} (hf : -0.876 ≤ f0) {s : ℝ} (hs : 0 < s) : 0 < ym.gluon.dressing_inv_landau s f0 := by
  have h := (C107_gluon (f0 := f0) (xi := 0) le_rfl (by norm_num) (by linarith) s hs).1
  have := log_pos (by linarith : 1 < 1 + s)
  linarith

theorem below_threshold {mu : ℝ} (nc : ℕ) (m : ℝ) (qs : List (ℕ × ℝ)) (h : ∀ q ∈ qs, |mu| < |q.2|) :
    ∀ qi ∈ (FieldConfig.new nc m qs).quarks_internal, |mu| < |qi.mq| := by
  intro qi hqi
  obtain ⟨q, hq, rfl⟩ := List.mem_map.1 hqi
  exact h q hq

/-- **C117**: Yang-Mills ghost, for every `g0 ≥ -5/24`. -/
theorem C117_ym_ghost (k : Consts ℝ) {om m g0 : ℝ} (ho : om ≠ 0) (p : ℝ) (hm : m ≠ 0) (hg : -(5 / 24) ≤ g0) :
    ∃ T0 : ℝ, 0 < T0 ∧ ∀ T : ℝ, 0 < T → T < T0 →
      Spec.Positive (ym.thermal.ghost.dressing_inv_landau .exact k om p m (1 / T) g0) ∧ Spec.Positive (ym.thermal.ghost.dressing_landau .exact k om p m (1 / T) g0) ∧ Spec.Positive (ym.thermal.ghost.propagator_landau .exact k om p m (1 / T) g0) := by
  have hs : 0 < om * om + p * p := by nlinarith [mul_self_pos.2 ho, mul_self_nonneg p]
  have hv := ((C107_ghost g0 0).1 hg le_rfl (by norm_num) _ (div_pos hs (mul_self_pos.2 hm : 0 < m * m))).1
  have e0 : ∀ᶠ beta in atTop, Spec.Positive (ym.thermal.ghost.dressing_inv_landau .exact k om p m beta g0) := eventually_positive (C72_ym_thermal_ghost_dressing_inv ho hm p k g0) hv fun b hb => (C97_real_ym exact_interior exact_conj k p m b g0 hm hb om ho).1
  refine eventually_low (P := fun beta => Spec.Positive (ym.thermal.ghost.dressing_inv_landau .exact k om p m beta g0) ∧ Spec.Positive (ym.thermal.ghost.dressing_landau .exact k om p m beta g0) ∧ Spec.Positive (ym.thermal.ghost.propagator_landau .exact k om p m beta g0)) ?_
  filter_upwards [e0] with beta h0
  exact ⟨h0, by simpa [ym.thermal.ghost.dressing_landau] using positive_inv h0, by simpa [ym.thermal.ghost.propagator_landau, ym.thermal.ghost.dressing_landau] using positive_mul hs h0⟩

/-- **C117**: Yang-Mills gluon, longitudinal and transverse, for every `f0 ≥ -0.876`. -/
theorem C117_ym_gluon (k : Consts ℝ) {om m f0 : ℝ} (ho : om ≠ 0) (p : ℝ) (hm : m ≠ 0) (hf : -0.876 ≤ f0) :
    ∃ T0 : ℝ, 0 < T0 ∧ ∀ T : ℝ, 0 < T → T < T0 →
      Spec.Positive (ym.thermal.gluon.dressing_l_inv_landau .exact k om p m (1 / T) f0) ∧ Spec.Positive (ym.thermal.gluon.dressing_l_landau .exact k om p m (1 / T) f0) ∧ Spec.Positive (ym.thermal.gluon.propagator_l_landau .exact k om p m (1 / T) f0) ∧
      Spec.Positive (ym.thermal.gluon.dressing_t_inv_landau .exact k om p m (1 / T) f0) ∧ Spec.Positive (ym.thermal.gluon.dressing_t_landau .exact k om p m (1 / T) f0) ∧ Spec.Positive (ym.thermal.gluon.propagator_t_landau .exact k om p m (1 / T) f0) := by
  have hs : 0 < om * om + p * p := by nlinarith [mul_self_pos.2 ho, mul_self_nonneg p]
  have hv := vacuum_ym hf (div_pos hs (mul_self_pos.2 hm : 0 < m * m))
  have e0 : ∀ᶠ beta in atTop, Spec.Positive (ym.thermal.gluon.dressing_l_inv_landau .exact k om p m beta f0) := eventually_positive (C72_ym_thermal_gluon_dressing_l_inv ho hm p k f0) hv fun b hb => (C97_real_ym exact_interior exact_conj k p m b f0 hm hb om ho).2.2.2.1
  have e1 : ∀ᶠ beta in atTop, Spec.Positive (ym.thermal.gluon.dressing_t_inv_landau .exact k om p m beta f0) := eventually_positive (C72_ym_thermal_gluon_dressing_t_inv ho hm p k f0) hv fun b hb => (C97_real_ym exact_interior exact_conj k p m b f0 hm hb om ho).2.2.2.2.2.2.1
  refine eventually_low (P := fun beta => Spec.Positive (ym.thermal.gluon.dressing_l_inv_landau .exact k om p m beta f0) ∧ Spec.Positive (ym.thermal.gluon.dressing_l_landau .exact k om p m beta f0) ∧ Spec.Positive (ym.thermal.gluon.propagator_l_landau .exact k om p m beta f0) ∧ Spec.Positive (ym.thermal.gluon.dressing_t_inv_landau .exact k om p m beta f0) ∧ Spec.Positive (ym.thermal.gluon.dressing_t_landau .exact k om p m beta f0) ∧ Spec.Positive (ym.thermal.gluon.propagator_t_landau .exact k om p m beta f0)) ?_
  filter_upwards [e0, e1] with beta h0 h1
  exact ⟨h0, by simpa [ym.thermal.gluon.dressing_l_landau] using positive_inv h0, by simpa [ym.thermal.gluon.propagator_l_landau, ym.thermal.gluon.dressing_l_landau] using positive_mul hs h0,
    h1, by simpa [ym.thermal.gluon.dressing_t_landau] using positive_inv h1, by simpa [ym.thermal.gluon.propagator_t_landau, ym.thermal.gluon.dressing_t_landau] using positive_mul hs h1⟩

/-- **C117**: Yang-Mills ghost and gluon at zero momentum. -/
theorem C117_ym_zero_momentum (k : Consts ℝ) {om m f0 g0 : ℝ} (ho : om ≠ 0) (hm : m ≠ 0) (hf : -0.876 ≤ f0) (hg : -(5 / 24) ≤ g0) :
    ∃ T0 : ℝ, 0 < T0 ∧ ∀ T : ℝ, 0 < T → T < T0 →
      Spec.Positive (ym.thermal.zero_momentum.ghost.dressing_inv_landau .exact k om m (1 / T) g0) ∧ Spec.Positive (ym.thermal.zero_momentum.ghost.dressing_landau .exact k om m (1 / T) g0) ∧ Spec.Positive (ym.thermal.zero_momentum.ghost.propagator_landau .exact k om m (1 / T) g0) ∧
      Spec.Positive (ym.thermal.zero_momentum.gluon.dressing_l_inv_landau .exact k om m (1 / T) f0) ∧ Spec.Positive (ym.thermal.zero_momentum.gluon.dressing_l_landau .exact k om m (1 / T) f0) ∧ Spec.Positive (ym.thermal.zero_momentum.gluon.propagator_l_landau .exact k om m (1 / T) f0) ∧
      Spec.Positive (ym.thermal.zero_momentum.gluon.dressing_t_inv_landau .exact k om m (1 / T) f0) ∧ Spec.Positive (ym.thermal.zero_momentum.gluon.dressing_t_landau .exact k om m (1 / T) f0) ∧ Spec.Positive (ym.thermal.zero_momentum.gluon.propagator_t_landau .exact k om m (1 / T) f0) := by
  have hs : 0 < om * om := mul_self_pos.2 ho
  have hu := ((C107_ghost g0 0).1 hg le_rfl (by norm_num) _ (div_pos hs (mul_self_pos.2 hm : 0 < m * m))).1
  have hv := vacuum_ym hf (div_pos hs (mul_self_pos.2 hm : 0 < m * m))
  have e0 : ∀ᶠ beta in atTop, Spec.Positive (ym.thermal.zero_momentum.ghost.dressing_inv_landau .exact k om m beta g0) := eventually_positive (C72_ym_thermal_zero_momentum_ghost_dressing_inv ho hm k g0) hu fun b hb => (C97_real_ym exact_interior exact_conj k 0 m b g0 hm hb om ho).2.2.2.2.2.2.2.2.2.1
  have e1 : ∀ᶠ beta in atTop, Spec.Positive (ym.thermal.zero_momentum.gluon.dressing_l_inv_landau .exact k om m beta f0) := eventually_positive (C72_ym_thermal_zero_momentum_gluon_dressing_l_inv ho hm k f0) hv fun b hb => (C97_real_ym exact_interior exact_conj k 0 m b f0 hm hb om ho).2.2.2.2.2.2.2.2.2.2.2.2.1
  have e2 : ∀ᶠ beta in atTop, Spec.Positive (ym.thermal.zero_momentum.gluon.dressing_t_inv_landau .exact k om m beta f0) := eventually_positive (C72_ym_thermal_zero_momentum_gluon_dressing_t_inv ho hm k f0) hv fun b hb => (C97_real_ym exact_interior exact_conj k 0 m b f0 hm hb om ho).2.2.2.2.2.2.2.2.2.2.2.2.2.2.2.1
  refine eventually_low (P := fun beta => Spec.Positive (ym.thermal.zero_momentum.ghost.dressing_inv_landau .exact k om m beta g0) ∧ Spec.Positive (ym.thermal.zero_momentum.ghost.dressing_landau .exact k om m beta g0) ∧ Spec.Positive (ym.thermal.zero_momentum.ghost.propagator_landau .exact k om m beta g0) ∧ Spec.Positive (ym.thermal.zero_momentum.gluon.dressing_l_inv_landau .exact k om m beta f0) ∧ Spec.Positive (ym.thermal.zero_momentum.gluon.dressing_l_landau .exact k om m beta f0) ∧ Spec.Positive (ym.thermal.zero_momentum.gluon.propagator_l_landau .exact k om m beta f0) ∧ Spec.Positive (ym.thermal.zero_momentum.gluon.dressing_t_inv_landau .exact k om m beta f0) ∧ Spec.Positive (ym.thermal.zero_momentum.gluon.dressing_t_landau .exact k om m beta f0) ∧ Spec.Positive (ym.thermal.zero_momentum.gluon.propagator_t_landau .exact k om m beta f0)) ?_
  filter_upwards [e0, e1, e2] with beta h0 h1 h2
  exact ⟨h0, by simpa [ym.thermal.zero_momentum.ghost.dressing_landau] using positive_inv h0, by simpa [ym.thermal.zero_momentum.ghost.propagator_landau, ym.thermal.zero_momentum.ghost.dressing_landau] using positive_mul hs h0,
    h1, by simpa [ym.thermal.zero_momentum.gluon.dressing_l_landau] using positive_inv h1, by simpa [ym.thermal.zero_momentum.gluon.propagator_l_landau, ym.thermal.zero_momentum.gluon.dressing_l_landau] using positive_mul hs h1,
    h2, by simpa [ym.thermal.zero_momentum.gluon.dressing_t_landau] using positive_inv h2, by simpa [ym.thermal.zero_momentum.gluon.propagator_t_landau, ym.thermal.zero_momentum.gluon.dressing_t_landau] using positive_mul hs h2⟩

/-- **C117**: Yang-Mills gluon at zero frequency. -/
theorem C117_ym_zero_matsubara (k : Consts ℝ) (hr : k.matsubara_reg ≠ 0) {p m f0 : ℝ} (hp : p ≠ 0) (hm : m ≠ 0) (hf : -0.876 ≤ f0) :
    ∃ T0 : ℝ, 0 < T0 ∧ ∀ T : ℝ, 0 < T → T < T0 →
      0 < ym.thermal.zero_matsubara.gluon.dressing_l_inv_landau .exact k p m (1 / T) f0 ∧ 0 < ym.thermal.zero_matsubara.gluon.dressing_l_landau .exact k p m (1 / T) f0 ∧ 0 < ym.thermal.zero_matsubara.gluon.propagator_l_landau .exact k p m (1 / T) f0 ∧
      0 < ym.thermal.zero_matsubara.gluon.dressing_t_inv_landau .exact k p m (1 / T) f0 ∧ 0 < ym.thermal.zero_matsubara.gluon.dressing_t_landau .exact k p m (1 / T) f0 ∧ 0 < ym.thermal.zero_matsubara.gluon.propagator_t_landau .exact k p m (1 / T) f0 := by
  have hs : 0 < p * p := mul_self_pos.2 hp
  have hv := vacuum_ym hf (div_pos hs (mul_self_pos.2 hm : 0 < m * m))
  have e0 : ∀ᶠ beta in atTop, 0 < ym.thermal.zero_matsubara.gluon.dressing_l_inv_landau .exact k p m beta f0 := (C72_ym_thermal_zero_matsubara_gluon_dressing_l_inv k hr hm p f0).eventually (lt_mem_nhds hv)
  have e1 : ∀ᶠ beta in atTop, 0 < ym.thermal.zero_matsubara.gluon.dressing_t_inv_landau .exact k p m beta f0 := (C72_ym_thermal_zero_matsubara_gluon_dressing_t_inv k hr hm p f0).eventually (lt_mem_nhds hv)
  refine eventually_low (P := fun beta => 0 < ym.thermal.zero_matsubara.gluon.dressing_l_inv_landau .exact k p m beta f0 ∧ 0 < ym.thermal.zero_matsubara.gluon.dressing_l_landau .exact k p m beta f0 ∧ 0 < ym.thermal.zero_matsubara.gluon.propagator_l_landau .exact k p m beta f0 ∧ 0 < ym.thermal.zero_matsubara.gluon.dressing_t_inv_landau .exact k p m beta f0 ∧ 0 < ym.thermal.zero_matsubara.gluon.dressing_t_landau .exact k p m beta f0 ∧ 0 < ym.thermal.zero_matsubara.gluon.propagator_t_landau .exact k p m beta f0) ?_
  filter_upwards [e0, e1] with beta h0 h1
  exact ⟨h0, by simp only [ym.thermal.zero_matsubara.gluon.dressing_l_landau]; exact one_div_pos.2 h0, by simp only [ym.thermal.zero_matsubara.gluon.propagator_l_landau, ym.thermal.zero_matsubara.gluon.dressing_l_landau]; exact div_pos (one_div_pos.2 h0) hs,
    h1, by simp only [ym.thermal.zero_matsubara.gluon.dressing_t_landau]; exact one_div_pos.2 h1, by simp only [ym.thermal.zero_matsubara.gluon.propagator_t_landau, ym.thermal.zero_matsubara.gluon.dressing_t_landau]; exact div_pos (one_div_pos.2 h1) hs⟩

/-- **C117**: QCD gluon with any field configuration, the chemical potential below every quark mass, under the conditions of C107. -/
theorem C117_qcd (k : Consts ℝ) {om : ℝ} (ho : om ≠ 0) (p : ℝ) {f0 m rho mu : ℝ} {nc : ℕ} (hm : 0 < m) (hr : 1 ≤ rho) (qs : List (ℕ × ℝ))
    (hq : ∀ q ∈ qs, 0 < q.2 ∧ m ^ 2 ≤ 5 * rho * q.2 ^ 2) (hmu : ∀ q ∈ qs, |mu| < q.2)
    (hN : 2 / 9 * (qs.map fun q => (q.1 : ℝ) / nc).sum ≤ 13 / 18)
    (hf : -0.876 + 2 / 9 * (qs.map fun q => (q.1 : ℝ) / nc).sum * log rho ≤ f0) :
    ∃ T0 : ℝ, 0 < T0 ∧ ∀ T : ℝ, 0 < T → T < T0 →
      Spec.Positive (qcd.thermal.gluon.dressing_l_inv_landau_w_field_config .exact k om p (1 / T) mu f0 (FieldConfig.new nc m qs)) ∧ Spec.Positive (qcd.thermal.gluon.dressing_l_landau_w_field_config .exact k om p (1 / T) mu f0 (FieldConfig.new nc m qs)) ∧ Spec.Positive (qcd.thermal.gluon.propagator_l_landau_w_field_config .exact k om p (1 / T) mu f0 (FieldConfig.new nc m qs)) ∧
      Spec.Positive (qcd.thermal.gluon.dressing_t_inv_landau_w_field_config .exact k om p (1 / T) mu f0 (FieldConfig.new nc m qs)) ∧ Spec.Positive (qcd.thermal.gluon.dressing_t_landau_w_field_config .exact k om p (1 / T) mu f0 (FieldConfig.new nc m qs)) ∧ Spec.Positive (qcd.thermal.gluon.propagator_t_landau_w_field_config .exact k om p (1 / T) mu f0 (FieldConfig.new nc m qs)) := by
  have hs : 0 < om * om + p * p := by nlinarith [mul_self_pos.2 ho, mul_self_nonneg p]
  have hv : 0 < qcd.gluon.dressing_inv_landau_w_field_config k ((om * om + p * p) / (m * m)) f0 (FieldConfig.new nc m qs) := (C107_qcd k (xi := 0) hm hr qs hq le_rfl (by linarith) (by linarith) _ (div_pos hs (mul_pos hm hm))).2.1.1
  have hq0 : ∀ q ∈ qs, q.2 ≠ 0 := fun q h => (hq q h).1.ne'
  have hthr := below_threshold nc m qs (fun q h => (hmu q h).trans_le (le_abs_self _))
  have hc := vre_config k (div_pos hs (mul_pos hm hm)) f0 nc hm.ne' qs hq0
  push_cast at hc
  have hl := C72_qcd_thermal_gluon_dressing_l_inv_w_field_config_vacuum ho k p mu f0 (FieldConfig.new nc m qs) hm.ne' hthr
  simp only [new_gluon_mass] at hl
  rw [hc] at hl
  have e0 : ∀ᶠ beta in atTop, Spec.Positive (qcd.thermal.gluon.dressing_l_inv_landau_w_field_config .exact k om p beta mu f0 (FieldConfig.new nc m qs)) := eventually_positive hl hv fun b hb => (C97_real_field_config exact_interior exact_conj k p b mu f0 nc m qs hm.ne' hq0 hb om ho).1
  have e1 : ∀ᶠ beta in atTop, Spec.Positive (qcd.thermal.gluon.dressing_t_inv_landau_w_field_config .exact k om p beta mu f0 (FieldConfig.new nc m qs)) := eventually_positive (C72_qcd_thermal_gluon_dressing_t_inv_w_field_config_vacuum ho k p mu f0 (FieldConfig.new nc m qs) hm.ne' hthr) hv fun b hb => (C97_real_field_config exact_interior exact_conj k p b mu f0 nc m qs hm.ne' hq0 hb om ho).2.2.2.1
  refine eventually_low (P := fun beta => Spec.Positive (qcd.thermal.gluon.dressing_l_inv_landau_w_field_config .exact k om p beta mu f0 (FieldConfig.new nc m qs)) ∧ Spec.Positive (qcd.thermal.gluon.dressing_l_landau_w_field_config .exact k om p beta mu f0 (FieldConfig.new nc m qs)) ∧ Spec.Positive (qcd.thermal.gluon.propagator_l_landau_w_field_config .exact k om p beta mu f0 (FieldConfig.new nc m qs)) ∧ Spec.Positive (qcd.thermal.gluon.dressing_t_inv_landau_w_field_config .exact k om p beta mu f0 (FieldConfig.new nc m qs)) ∧ Spec.Positive (qcd.thermal.gluon.dressing_t_landau_w_field_config .exact k om p beta mu f0 (FieldConfig.new nc m qs)) ∧ Spec.Positive (qcd.thermal.gluon.propagator_t_landau_w_field_config .exact k om p beta mu f0 (FieldConfig.new nc m qs))) ?_
  filter_upwards [e0, e1] with beta h0 h1
  exact ⟨h0, by simpa [qcd.thermal.gluon.dressing_l_landau_w_field_config] using positive_inv h0, by simpa [qcd.thermal.gluon.propagator_l_landau_w_field_config, qcd.thermal.gluon.dressing_l_landau_w_field_config] using positive_mul hs h0,
    h1, by simpa [qcd.thermal.gluon.dressing_t_landau_w_field_config] using positive_inv h1, by simpa [qcd.thermal.gluon.propagator_t_landau_w_field_config, qcd.thermal.gluon.dressing_t_landau_w_field_config] using positive_mul hs h1⟩

/-- **C117**: QCD gluon with any field configuration, the chemical potential below every quark mass, under the conditions of C107, at zero momentum. -/
theorem C117_qcd_zero_momentum (k : Consts ℝ) {om : ℝ} (ho : om ≠ 0) {f0 m rho mu : ℝ} {nc : ℕ} (hm : 0 < m) (hr : 1 ≤ rho) (qs : List (ℕ × ℝ))
    (hq : ∀ q ∈ qs, 0 < q.2 ∧ m ^ 2 ≤ 5 * rho * q.2 ^ 2) (hmu : ∀ q ∈ qs, |mu| < q.2)
    (hN : 2 / 9 * (qs.map fun q => (q.1 : ℝ) / nc).sum ≤ 13 / 18)
    (hf : -0.876 + 2 / 9 * (qs.map fun q => (q.1 : ℝ) / nc).sum * log rho ≤ f0) :
    ∃ T0 : ℝ, 0 < T0 ∧ ∀ T : ℝ, 0 < T → T < T0 →
      Spec.Positive (qcd.thermal.zero_momentum.gluon.dressing_l_inv_landau_w_field_config .exact k om (1 / T) mu f0 (FieldConfig.new nc m qs)) ∧ Spec.Positive (qcd.thermal.zero_momentum.gluon.dressing_l_landau_w_field_config .exact k om (1 / T) mu f0 (FieldConfig.new nc m qs)) ∧ Spec.Positive (qcd.thermal.zero_momentum.gluon.propagator_l_landau_w_field_config .exact k om (1 / T) mu f0 (FieldConfig.new nc m qs)) ∧
      Spec.Positive (qcd.thermal.zero_momentum.gluon.dressing_t_inv_landau_w_field_config .exact k om (1 / T) mu f0 (FieldConfig.new nc m qs)) ∧ Spec.Positive (qcd.thermal.zero_momentum.gluon.dressing_t_landau_w_field_config .exact k om (1 / T) mu f0 (FieldConfig.new nc m qs)) ∧ Spec.Positive (qcd.thermal.zero_momentum.gluon.propagator_t_landau_w_field_config .exact k om (1 / T) mu f0 (FieldConfig.new nc m qs)) := by
  have hs : 0 < om * om := mul_self_pos.2 ho
  have hv : 0 < qcd.gluon.dressing_inv_landau_w_field_config k ((om * om) / (m * m)) f0 (FieldConfig.new nc m qs) := (C107_qcd k (xi := 0) hm hr qs hq le_rfl (by linarith) (by linarith) _ (div_pos hs (mul_pos hm hm))).2.1.1
  have hq0 : ∀ q ∈ qs, q.2 ≠ 0 := fun q h => (hq q h).1.ne'
  have hthr := below_threshold nc m qs (fun q h => (hmu q h).trans_le (le_abs_self _))
  have e0 : ∀ᶠ beta in atTop, Spec.Positive (qcd.thermal.zero_momentum.gluon.dressing_l_inv_landau_w_field_config .exact k om beta mu f0 (FieldConfig.new nc m qs)) := eventually_positive (C72_qcd_thermal_zero_momentum_gluon_dressing_l_inv_w_field_config_vacuum ho k mu f0 (FieldConfig.new nc m qs) hm.ne' hthr) hv fun b hb => (C97_real_field_config exact_interior exact_conj k 0 b mu f0 nc m qs hm.ne' hq0 hb om ho).2.2.2.2.2.2.1
  have e1 : ∀ᶠ beta in atTop, Spec.Positive (qcd.thermal.zero_momentum.gluon.dressing_t_inv_landau_w_field_config .exact k om beta mu f0 (FieldConfig.new nc m qs)) := eventually_positive (C72_qcd_thermal_zero_momentum_gluon_dressing_t_inv_w_field_config_vacuum ho k mu f0 (FieldConfig.new nc m qs) hm.ne' hthr) hv fun b hb => (C97_real_field_config exact_interior exact_conj k 0 b mu f0 nc m qs hm.ne' hq0 hb om ho).2.2.2.2.2.2.2.2.2.1
  refine eventually_low (P := fun beta => Spec.Positive (qcd.thermal.zero_momentum.gluon.dressing_l_inv_landau_w_field_config .exact k om beta mu f0 (FieldConfig.new nc m qs)) ∧ Spec.Positive (qcd.thermal.zero_momentum.gluon.dressing_l_landau_w_field_config .exact k om beta mu f0 (FieldConfig.new nc m qs)) ∧ Spec.Positive (qcd.thermal.zero_momentum.gluon.propagator_l_landau_w_field_config .exact k om beta mu f0 (FieldConfig.new nc m qs)) ∧ Spec.Positive (qcd.thermal.zero_momentum.gluon.dressing_t_inv_landau_w_field_config .exact k om beta mu f0 (FieldConfig.new nc m qs)) ∧ Spec.Positive (qcd.thermal.zero_momentum.gluon.dressing_t_landau_w_field_config .exact k om beta mu f0 (FieldConfig.new nc m qs)) ∧ Spec.Positive (qcd.thermal.zero_momentum.gluon.propagator_t_landau_w_field_config .exact k om beta mu f0 (FieldConfig.new nc m qs))) ?_
  filter_upwards [e0, e1] with beta h0 h1
  exact ⟨h0, by simpa [qcd.thermal.zero_momentum.gluon.dressing_l_landau_w_field_config] using positive_inv h0, by simpa [qcd.thermal.zero_momentum.gluon.propagator_l_landau_w_field_config, qcd.thermal.zero_momentum.gluon.dressing_l_landau_w_field_config] using positive_mul hs h0,
    h1, by simpa [qcd.thermal.zero_momentum.gluon.dressing_t_landau_w_field_config] using positive_inv h1, by simpa [qcd.thermal.zero_momentum.gluon.propagator_t_landau_w_field_config, qcd.thermal.zero_momentum.gluon.dressing_t_landau_w_field_config] using positive_mul hs h1⟩

/-- **C117**: QCD gluon with any field configuration, the chemical potential below every quark mass, under the conditions of C107, at zero frequency. -/
theorem C117_qcd_zero_matsubara (k : Consts ℝ) (hreg : k.matsubara_reg ≠ 0) {p : ℝ} (hp : p ≠ 0) {f0 m rho mu : ℝ} {nc : ℕ} (hm : 0 < m) (hr : 1 ≤ rho) (qs : List (ℕ × ℝ))
    (hq : ∀ q ∈ qs, 0 < q.2 ∧ m ^ 2 ≤ 5 * rho * q.2 ^ 2) (hmu : ∀ q ∈ qs, |mu| < q.2)
    (hN : 2 / 9 * (qs.map fun q => (q.1 : ℝ) / nc).sum ≤ 13 / 18)
    (hf : -0.876 + 2 / 9 * (qs.map fun q => (q.1 : ℝ) / nc).sum * log rho ≤ f0) :
    ∃ T0 : ℝ, 0 < T0 ∧ ∀ T : ℝ, 0 < T → T < T0 →
      0 < qcd.thermal.zero_matsubara.gluon.dressing_l_inv_landau_w_field_config .exact k p (1 / T) mu f0 (FieldConfig.new nc m qs) ∧ 0 < qcd.thermal.zero_matsubara.gluon.dressing_l_landau_w_field_config .exact k p (1 / T) mu f0 (FieldConfig.new nc m qs) ∧ 0 < qcd.thermal.zero_matsubara.gluon.propagator_l_landau_w_field_config .exact k p (1 / T) mu f0 (FieldConfig.new nc m qs) ∧
      0 < qcd.thermal.zero_matsubara.gluon.dressing_t_inv_landau_w_field_config .exact k p (1 / T) mu f0 (FieldConfig.new nc m qs) ∧ 0 < qcd.thermal.zero_matsubara.gluon.dressing_t_landau_w_field_config .exact k p (1 / T) mu f0 (FieldConfig.new nc m qs) ∧ 0 < qcd.thermal.zero_matsubara.gluon.propagator_t_landau_w_field_config .exact k p (1 / T) mu f0 (FieldConfig.new nc m qs) := by
  have hs : 0 < p * p := mul_self_pos.2 hp
  have hv : 0 < qcd.gluon.dressing_inv_landau_w_field_config k ((p * p) / (m * m)) f0 (FieldConfig.new nc m qs) := (C107_qcd k (xi := 0) hm hr qs hq le_rfl (by linarith) (by linarith) _ (div_pos hs (mul_pos hm hm))).2.1.1
  have hq0 : ∀ q ∈ qs, q.2 ≠ 0 := fun q h => (hq q h).1.ne'
  have hthr := below_threshold nc m qs (fun q h => (hmu q h).trans_le (le_abs_self _))
  have e0 : ∀ᶠ beta in atTop, 0 < qcd.thermal.zero_matsubara.gluon.dressing_l_inv_landau_w_field_config .exact k p beta mu f0 (FieldConfig.new nc m qs) := (C72_qcd_thermal_zero_matsubara_gluon_dressing_l_inv_w_field_config_vacuum k hreg p mu f0 (FieldConfig.new nc m qs) hm.ne' hthr).eventually (lt_mem_nhds hv)
  have e1 : ∀ᶠ beta in atTop, 0 < qcd.thermal.zero_matsubara.gluon.dressing_t_inv_landau_w_field_config .exact k p beta mu f0 (FieldConfig.new nc m qs) := (C72_qcd_thermal_zero_matsubara_gluon_dressing_t_inv_w_field_config_vacuum k hreg p mu f0 (FieldConfig.new nc m qs) hm.ne' hthr).eventually (lt_mem_nhds hv)
  refine eventually_low (P := fun beta => 0 < qcd.thermal.zero_matsubara.gluon.dressing_l_inv_landau_w_field_config .exact k p beta mu f0 (FieldConfig.new nc m qs) ∧ 0 < qcd.thermal.zero_matsubara.gluon.dressing_l_landau_w_field_config .exact k p beta mu f0 (FieldConfig.new nc m qs) ∧ 0 < qcd.thermal.zero_matsubara.gluon.propagator_l_landau_w_field_config .exact k p beta mu f0 (FieldConfig.new nc m qs) ∧ 0 < qcd.thermal.zero_matsubara.gluon.dressing_t_inv_landau_w_field_config .exact k p beta mu f0 (FieldConfig.new nc m qs) ∧ 0 < qcd.thermal.zero_matsubara.gluon.dressing_t_landau_w_field_config .exact k p beta mu f0 (FieldConfig.new nc m qs) ∧ 0 < qcd.thermal.zero_matsubara.gluon.propagator_t_landau_w_field_config .exact k p beta mu f0 (FieldConfig.new nc m qs)) ?_
  filter_upwards [e0, e1] with beta h0 h1
  exact ⟨h0, by simp only [qcd.thermal.zero_matsubara.gluon.dressing_l_landau_w_field_config]; exact one_div_pos.2 h0, by simp only [qcd.thermal.zero_matsubara.gluon.propagator_l_landau_w_field_config, qcd.thermal.zero_matsubara.gluon.dressing_l_landau_w_field_config]; exact div_pos (one_div_pos.2 h0) hs,
    h1, by simp only [qcd.thermal.zero_matsubara.gluon.dressing_t_landau_w_field_config]; exact one_div_pos.2 h1, by simp only [qcd.thermal.zero_matsubara.gluon.propagator_t_landau_w_field_config, qcd.thermal.zero_matsubara.gluon.dressing_t_landau_w_field_config]; exact div_pos (one_div_pos.2 h1) hs⟩
/-! ### Non-vacuity -/

/-- Two light and one heavy quark flavour with three colours, `f0 = 0`: the conditions of `C117_qcd` hold with `rho = 1`. -/
example (k : Consts ℝ) : ∃ T0 : ℝ, 0 < T0 ∧ ∀ T : ℝ, 0 < T → T < T0 →
    Spec.Positive (qcd.thermal.gluon.propagator_l_landau_w_field_config .exact k (1 : ℝ) (2 : ℝ) (1 / T) (1 / 10) 0 (FieldConfig.new 3 (1 / 2) [(2, 1 / 3), (1, 1 / 2)])) := by
  obtain ⟨T0, h0, h⟩ := C117_qcd k (om := 1) one_ne_zero 2 (f0 := 0) (m := 1 / 2) (rho := 1) (mu := 1 / 10) (nc := 3) (by norm_num) le_rfl
    [(2, 1 / 3), (1, 1 / 2)] (by simp only [List.mem_cons, List.not_mem_nil, or_false, forall_eq_or_imp, forall_eq]; norm_num)
    (by simp only [List.mem_cons, List.not_mem_nil, or_false, forall_eq_or_imp, forall_eq]; rw [abs_of_pos (by norm_num)]; norm_num) (by norm_num) (by norm_num)
  exact ⟨T0, h0, fun T a b => (h T a b).2.2.1⟩

end Qcd
