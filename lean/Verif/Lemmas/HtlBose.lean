import Verif.Lemmas.Htl

/-! # Bosonic loops at high temperature

`Hot F c`: the integral of `F β` over the loop momentum, multiplied by `β²`, tends to `c` as `β → 0`. -/

set_option linter.unusedSimpArgs false

namespace Qcd
open MeasureTheory Filter Topology Set

structure Hot (F : ℝ → ℝ → ℂ) (c : ℂ) : Prop where
  int : ∀ b, 0 < b → IntegrableOn (F b) (Ioi 0)
  lim : Tendsto (fun b : ℝ => (b : ℂ) ^ 2 * ∫ q in Ioi (0 : ℝ), F b q) (𝓝[>] 0) (𝓝 c)

namespace Hot
variable {F G : ℝ → ℝ → ℂ} {c d : ℂ}

theorem add (hF : Hot F c) (hG : Hot G d) : Hot (fun b q => F b q + G b q) (c + d) := by
  refine ⟨fun b hb => (hF.int b hb).add (hG.int b hb), (hF.lim.add hG.lim).congr' ?_⟩
  filter_upwards [self_mem_nhdsWithin] with b hb
  rw [integral_add (hF.int b hb) (hG.int b hb), mul_add]

theorem const_mul (hF : Hot F c) (a : ℂ) : Hot (fun b q => a * F b q) (a * c) := by
  refine ⟨fun b hb => (hF.int b hb).const_mul a, (hF.lim.const_mul a).congr fun b => ?_⟩
  rw [integral_const_mul]; ring

theorem mul_const (hF : Hot F c) (a : ℂ) : Hot (fun b q => F b q * a) (c * a) := by
  simpa [mul_comm] using hF.const_mul a

theorem div_const (hF : Hot F c) (a : ℂ) : Hot (fun b q => F b q / a) (c / a) := by
  simpa [div_eq_mul_inv] using hF.mul_const a⁻¹

theorem neg (hF : Hot F c) : Hot (fun b q => -F b q) (-c) := by
  simpa using hF.const_mul (-1)

theorem sub (hF : Hot F c) (hG : Hot G d) : Hot (fun b q => F b q - G b q) (c - d) := by
  simpa [sub_eq_add_neg] using hF.add hG.neg

theorem congr (hF : Hot F c) (h : ∀ b q, 0 < b → 0 < q → G b q = F b q) (hd : d = c) : Hot G d := by
  refine ⟨fun b hb => (hF.int b hb).congr_fun (fun q hq => (h b q hb hq).symm) measurableSet_Ioi, ?_⟩
  rw [hd]
  refine hF.lim.congr' ?_
  filter_upwards [self_mem_nhdsWithin] with b hb
  rw [setIntegral_congr_fun measurableSet_Ioi fun q hq => h b q hb hq]

/-- Scaling of the loop momentum: `F β (y/β) β` converges and is dominated. -/
theorem of_scaled (hm : ∀ b, Measurable (F b)) {g : ℝ → ℂ} {B : ℝ → ℝ} (hB : IntegrableOn B (Ioi 0))
    (hi : ∀ b, 0 < b → IntegrableOn (F b) (Ioi 0))
    (hb : ∀ b y : ℝ, 0 < b → b < 1 → 0 < y → ‖(b : ℂ) * F b (b⁻¹ * y)‖ ≤ B y)
    (hl : ∀ y : ℝ, 0 < y → Tendsto (fun b : ℝ => (b : ℂ) * F b (b⁻¹ * y)) (𝓝[>] 0) (𝓝 (g y))) :
    Hot F (∫ y in Ioi (0 : ℝ), g y) := by
  refine ⟨hi, ?_⟩
  refine Tendsto.congr' (f₁ := fun b : ℝ => ∫ y in Ioi (0 : ℝ), (b : ℂ) * F b (b⁻¹ * y)) ?_ ?_
  · filter_upwards [self_mem_nhdsWithin] with b hb
    have hb : 0 < b := hb
    have h1 := integral_comp_mul_left_Ioi (F b) 0 (inv_pos.2 hb)
    rw [mul_zero, inv_inv] at h1
    rw [integral_const_mul, h1, Complex.real_smul]
    ring
  · refine tendsto_integral_filter_of_dominated_convergence B (.of_forall fun b => ?_) ?_ hB ?_
    · exact (((hm b).comp (measurable_const_mul _)).const_mul _).aestronglyMeasurable
    · filter_upwards [self_mem_nhdsWithin, nhdsWithin_le_nhds (gt_mem_nhds (zero_lt_one' ℝ))] with b h0 h1
      exact (ae_restrict_iff' measurableSet_Ioi).2 (.of_forall fun y hy => hb b y h0 h1 hy)
    · exact (ae_restrict_iff' measurableSet_Ioi).2 (.of_forall fun y hy => hl y hy)

end Hot

theorem exp_half_integrable (C : ℝ) : IntegrableOn (fun y : ℝ => C * Real.exp (-(y / 2))) (Ioi 0) := by
  have h : IntegrableOn (fun y : ℝ => C * Real.exp (-(1 / 2) * y)) (Ioi 0) :=
    (exp_neg_integrableOn_Ioi 0 (by norm_num : (0 : ℝ) < 1 / 2)).const_mul C
  refine h.congr_fun (fun y _ => ?_) measurableSet_Ioi
  simp only
  congr 2; ring

/-- Energies of the two lines of a gluon loop. -/
structure Line (e : ℝ → ℝ) : Prop where
  meas : Measurable e
  le : ∀ q, 0 < q → q ≤ e q
  lim : Tendsto (fun q => e q / q) atTop (𝓝 1)

theorem Line.massless : Line fun q => q := ⟨measurable_id, fun _ _ => le_rfl, tendsto_const_nhds.congr' (by
  filter_upwards [eventually_gt_atTop 0] with q hq; rw [div_self hq.ne'])⟩

theorem Line.massive (m : ℝ) : Line fun q => energy q m := by
  refine ⟨energy_meas m, fun q hq => le_energy_dom hq.le, ?_⟩
  have h1 : Tendsto (fun q : ℝ => Real.sqrt (m * m * q⁻¹ ^ 2 + 1)) atTop (𝓝 1) := by
    have := ((tendsto_inv_atTop_zero (𝕜 := ℝ)).pow 2).const_mul (m * m) |>.add_const 1
    simpa [Function.comp_def] using (Real.continuous_sqrt.tendsto _).comp this
  refine h1.congr' ?_
  filter_upwards [eventually_gt_atTop 0] with q hq
  rw [energy_real, show m * m + q * q = (m * m * q⁻¹ ^ 2 + 1) * q ^ 2 by field_simp,
    Real.sqrt_mul (by have := mul_self_nonneg m; positivity), Real.sqrt_sq hq.le, mul_div_cancel_right₀ _ hq.ne']

theorem Line.scaled {e : ℝ → ℝ} (h : Line e) {y : ℝ} (hy : 0 < y) : Tendsto (fun b : ℝ => e (b⁻¹ * y) * b) (𝓝[>] 0) (𝓝 y) := by
  have h1 : Tendsto (fun b : ℝ => b⁻¹ * y) (𝓝[>] 0) atTop := tendsto_inv_nhdsGT_zero.atTop_mul_const hy
  have h2 := (h.lim.comp h1).const_mul y
  rw [mul_one] at h2
  refine h2.congr' ?_
  filter_upwards [self_mem_nhdsWithin] with b hb
  have hb : b ≠ 0 := ne_of_gt hb
  have := hy.ne'
  simp only [Function.comp]
  field_simp

theorem exp_sub_one_pos {y : ℝ} (hy : 0 < y) : Real.exp y - 1 ≠ 0 := by
  have := Real.one_lt_exp_iff.2 hy
  linarith

theorem lim_scaled {K : ℝ → ℂ} {c : ℂ} (hlim : Tendsto (fun q : ℝ => K q / q) atTop (𝓝 c)) {y : ℝ} (hy : 0 < y) :
    Tendsto (fun b : ℝ => (b : ℂ) * K (b⁻¹ * y)) (𝓝[>] 0) (𝓝 (y * c)) := by
  have h1 : Tendsto (fun b : ℝ => b⁻¹ * y) (𝓝[>] 0) atTop := tendsto_inv_nhdsGT_zero.atTop_mul_const hy
  refine ((hlim.comp h1).const_mul (y : ℂ)).congr' ?_
  filter_upwards [self_mem_nhdsWithin] with b hb
  have hb : (b : ℂ) ≠ 0 := Complex.ofReal_ne_zero.2 (ne_of_gt hb)
  have hy : (y : ℂ) ≠ 0 := Complex.ofReal_ne_zero.2 hy.ne'
  simp only [Function.comp]
  push_cast
  field_simp

/-- A Bose distribution times a function of at most linear growth. -/
theorem Hot.bose {e : ℝ → ℝ} (he : Line e) {K : ℝ → ℂ} (hK : Measurable K) {C : ℝ} (hC : ∀ q, 0 < q → ‖K q‖ ≤ C * e q) {c : ℂ}
    (hlim : Tendsto (fun q : ℝ => K q / q) atTop (𝓝 c))
    (hi : ∀ b, 0 < b → IntegrableOn (fun q => ((bose_distribution_zero_chempot (e q) b : ℝ) : ℂ) * K q) (Ioi 0)) :
    Hot (fun b q => ((bose_distribution_zero_chempot (e q) b : ℝ) : ℂ) * K q) (c * ((Real.pi ^ 2 / 6 : ℝ) : ℂ)) := by
  have hlimint : c * ((Real.pi ^ 2 / 6 : ℝ) : ℂ) = ∫ y in Ioi (0 : ℝ), (((Real.exp y - 1)⁻¹ : ℝ) : ℂ) * (y * c) := by
    rw [← integral_bose_moment, ← integral_complex_ofReal, ← integral_const_mul]
    refine setIntegral_congr_fun measurableSet_Ioi fun y _ => ?_
    push_cast
    ring
  have hC0 : 0 ≤ C := by
    have := (norm_nonneg _).trans (hC 1 one_pos)
    have := he.le 1 one_pos
    by_contra h
    nlinarith
  rw [hlimint]
  refine Hot.of_scaled (F := fun b q => ((bose_distribution_zero_chempot (e q) b : ℝ) : ℂ) * K q)
    (fun b => (Complex.measurable_ofReal.comp (bose_meas he.meas b)).mul hK) (exp_half_integrable C) hi ?_ ?_
  · intro b y hb _ hy
    have hq : 0 < b⁻¹ * y := by positivity
    have h1 := he.le _ hq
    obtain ⟨h2, h3⟩ := bose_bound (hq.trans_le h1) hb
    have hep := hq.trans_le h1
    rw [norm_mul, norm_mul, Complex.norm_real, Complex.norm_real, Real.norm_of_nonneg hb.le, Real.norm_of_nonneg h2]
    have hu : y ≤ e (b⁻¹ * y) * b := by
      calc y = b⁻¹ * y * b := by field_simp
        _ ≤ _ := by gcongr
    calc b * (bose_distribution_zero_chempot (e (b⁻¹ * y)) b * ‖K (b⁻¹ * y)‖)
        ≤ b * (Real.exp (-(e (b⁻¹ * y) * b / 2)) / (e (b⁻¹ * y) * b) * (C * e (b⁻¹ * y))) := by gcongr; exact hC _ hq
      _ = C * Real.exp (-(e (b⁻¹ * y) * b / 2)) := by generalize e (b⁻¹ * y) = x at *; field_simp
      _ ≤ _ := by gcongr
  · intro y hy
    have h1 : Tendsto (fun b : ℝ => bose_distribution_zero_chempot (e (b⁻¹ * y)) b) (𝓝[>] 0) (𝓝 (Real.exp y - 1)⁻¹) := by
      simp only [boseZ_real]
      exact (((Real.continuous_exp.tendsto _).comp (he.scaled hy)).sub_const 1).inv₀ (exp_sub_one_pos hy)
    refine (((Complex.continuous_ofReal.tendsto _).comp h1).mul (lim_scaled hlim hy)).congr fun b => ?_
    simp only [Function.comp]
    ring

theorem growth_of_limit {K : ℝ → ℂ} {a : ℕ} (hK : Grow a K) {c : ℂ} (hlim : Tendsto (fun q : ℝ => K q / q) atTop (𝓝 c)) :
    ∃ C R : ℝ, 0 ≤ C ∧ 0 < R ∧ (∀ q, R ≤ q → ‖K q‖ ≤ C * q) ∧ (∀ q, 0 < q → q ≤ R → ‖K q‖ ≤ C * q ^ a) := by
  obtain ⟨hm, D, k, hD, h⟩ := hK
  have h1 : ∀ᶠ q : ℝ in atTop, ‖K q / q‖ < ‖c‖ + 1 := hlim.norm.eventually (gt_mem_nhds (by linarith))
  obtain ⟨R, hR⟩ := (h1.and (eventually_gt_atTop 0)).exists_forall_of_atTop
  have hR0 := (hR R le_rfl).2
  refine ⟨‖c‖ + 1 + D * (1 + R) ^ k, R, by positivity, hR0, fun q hq => ?_, fun q hq hqR => ?_⟩
  · obtain ⟨h2, h3⟩ := hR q hq
    rw [norm_div, Complex.norm_real, Real.norm_of_nonneg h3.le, div_lt_iff₀ h3] at h2
    refine h2.le.trans ?_
    have : 0 ≤ D * (1 + R) ^ k * q := by positivity
    linarith
  · refine (h q hq).trans ?_
    calc D * q ^ a * (1 + q) ^ k ≤ D * q ^ a * (1 + R) ^ k := by gcongr
      _ = D * (1 + R) ^ k * q ^ a := by ring
      _ ≤ _ := by gcongr; exact le_add_of_nonneg_left (by positivity)

theorem Hot.massless {K : ℝ → ℂ} (hK : Grow 1 K) {c : ℂ} (hlim : Tendsto (fun q : ℝ => K q / q) atTop (𝓝 c)) :
    Hot (fun b q => ((bose_distribution_zero_chempot q b : ℝ) : ℂ) * K q) (c * ((Real.pi ^ 2 / 6 : ℝ) : ℂ)) := by
  obtain ⟨C, R, hC, hR, h1, h2⟩ := growth_of_limit hK hlim
  refine Hot.bose Line.massless hK.meas (C := C) (fun q hq => ?_) hlim fun b hb => (Dom.bose_massless hb hK).integrable hb le_rfl
  rcases le_total R q with h | h
  · exact h1 q h
  · simpa using h2 q hq h

theorem Hot.massive {m : ℝ} (hm : m ≠ 0) {K : ℝ → ℂ} (hK : Grow 0 K) {c : ℂ} (hlim : Tendsto (fun q : ℝ => K q / q) atTop (𝓝 c)) :
    Hot (fun b q => ((bose_distribution_zero_chempot (energy q m) b : ℝ) : ℂ) * K q) (c * ((Real.pi ^ 2 / 6 : ℝ) : ℂ)) := by
  obtain ⟨C, R, hC, hR, h1, h2⟩ := growth_of_limit hK hlim
  have hm' := abs_pos.2 hm
  refine Hot.bose (Line.massive m) hK.meas (C := C + C / |m|) (fun q hq => ?_) hlim fun b hb => ((Dom.bose_massive hb hm).mul hK).integrable hb le_rfl
  have g1 := le_energy_dom (m := m) hq.le
  have g2 := abs_le_energy q m
  rw [add_mul]
  rcases le_total R q with h | h
  · have := h1 q h
    have h3 : C * q ≤ C * energy q m := by gcongr
    have h4 : 0 ≤ C / |m| * energy q m := by have := hm'.trans_le g2; positivity
    linarith
  · have := h2 q hq h
    rw [pow_zero, mul_one] at this
    have h3 : C ≤ C / |m| * energy q m := by
      rw [div_mul_eq_mul_div, le_div_iff₀ hm']
      gcongr
    have h4 : 0 ≤ C * energy q m := by have := hm'.trans_le g2; positivity
    linarith

end Qcd
