import Verif.Lemmas.HtlIntegrals

/-! # The quark loop at high temperature

With `v = q/E` and `w = 1/(2E)` the logarithms of the quark loop are angular integrals whose denominators are bounded below by the
frequency, uniformly in the loop momentum. -/

set_option linter.unusedSimpArgs false

namespace Qcd
open MeasureTheory Filter Topology Set
open scoped Interval

/-! ### Scaling of the loop momentum with the temperature -/

theorem htl_core {H : ℝ → ℂ} (hH : Measurable H) {C : ℝ} (hC : ∀ x, 0 < x → ‖H x‖ ≤ C * (1 + x)) {c : ℂ}
    (hlim : Tendsto (fun x : ℝ => H x / x) atTop (𝓝 c)) (mq : ℝ) {mu : ℝ → ℝ} {v : ℝ}
    (hmu : Tendsto (fun b => b * mu b) (𝓝[>] 0) (𝓝 v)) :
    Tendsto (fun b : ℝ => (b : ℂ) ^ 2 * ∫ q in Ioi (0 : ℝ), ((fermi_distribution_double (energy q mq) b (mu b) : ℝ) : ℂ) * H q)
      (𝓝[>] 0) (𝓝 (c * ((Real.pi ^ 2 / 6 + v ^ 2 / 2 : ℝ) : ℂ))) := by
  have hC0 : 0 ≤ C := by
    have := (norm_nonneg _).trans (hC 1 one_pos)
    linarith
  let u : ℝ → ℝ → ℝ := fun b y => Real.sqrt (b * b * (mq * mq) + y * y)
  let F : ℝ → ℝ → ℂ := fun b y => (((Real.exp (u b y - b * mu b) + 1)⁻¹ + (Real.exp (u b y + b * mu b) + 1)⁻¹ : ℝ) : ℂ) * (b * H (b⁻¹ * y))
  have hF : ∀ b : ℝ, 0 < b → (b : ℂ) ^ 2 * ∫ q in Ioi (0 : ℝ), ((fermi_distribution_double (energy q mq) b (mu b) : ℝ) : ℂ) * H q =
      ∫ y in Ioi (0 : ℝ), F b y := by
    intro b hb
    have h1 := integral_comp_mul_left_Ioi (fun q => ((fermi_distribution_double (energy q mq) b (mu b) : ℝ) : ℂ) * H q) 0 (inv_pos.2 hb)
    rw [mul_zero, inv_inv] at h1
    have h2 : (b : ℂ) ^ 2 * ∫ q in Ioi (0 : ℝ), ((fermi_distribution_double (energy q mq) b (mu b) : ℝ) : ℂ) * H q =
        b * (b • ∫ q in Ioi (0 : ℝ), ((fermi_distribution_double (energy q mq) b (mu b) : ℝ) : ℂ) * H q) := by
      rw [Complex.real_smul]; ring
    rw [h2, ← h1, ← integral_const_mul]
    refine setIntegral_congr_fun measurableSet_Ioi fun y (hy : 0 < y) => ?_
    have h3 : energy (b⁻¹ * y) mq * b = u b y := by
      rw [energy_real]
      simp only [u]
      have h4 : b * b * (mq * mq) + y * y = (mq * mq + b⁻¹ * y * (b⁻¹ * y)) * b ^ 2 := by field_simp
      rw [h4, Real.sqrt_mul (by nlinarith [mul_self_nonneg mq, mul_self_nonneg (b⁻¹ * y)]), Real.sqrt_sq hb.le]
    simp only [F]
    rw [fermi_double_real, sub_mul, add_mul, h3, mul_comm (mu b) b]
    ring
  refine Tendsto.congr' (f₁ := fun b => ∫ y in Ioi (0 : ℝ), F b y) ?_ ?_
  · filter_upwards [self_mem_nhdsWithin] with b hb
    exact (hF b hb).symm
  have hlimint : c * ((Real.pi ^ 2 / 6 + v ^ 2 / 2 : ℝ) : ℂ) =
      ∫ y in Ioi (0 : ℝ), (((Real.exp (y - v) + 1)⁻¹ + (Real.exp (y + v) + 1)⁻¹ : ℝ) : ℂ) * (y * c) := by
    rw [← integral_fermi_double_moment, ← integral_complex_ofReal, ← integral_const_mul]
    refine setIntegral_congr_fun measurableSet_Ioi fun y _ => ?_
    push_cast
    ring
  rw [hlimint]
  have hu : ∀ b y : ℝ, 0 < y → y ≤ u b y := fun b y hy =>
    Real.le_sqrt_of_sq_le (by nlinarith [mul_self_nonneg (b * mq)])
  refine tendsto_integral_filter_of_dominated_convergence
    (fun y => 2 * Real.exp (|v| + 1) * C * (1 + y) ^ 1 * Real.exp (-(4 / 4 * y))) (.of_forall fun b => ?_) ?_
    (Dom.bound_integrable (by norm_num) _ 1) ?_
  · have h1 : Measurable (u b) := by simp only [u]; fun_prop
    have h2 : Measurable fun y => H (b⁻¹ * y) := hH.comp (measurable_const_mul _)
    exact Measurable.aestronglyMeasurable (by simp only [F]; fun_prop)
  · have hv : ∀ᶠ b in 𝓝[>] (0 : ℝ), |b * mu b| < |v| + 1 := hmu.abs.eventually (gt_mem_nhds (by linarith))
    filter_upwards [self_mem_nhdsWithin, hv, nhdsWithin_le_nhds (gt_mem_nhds (zero_lt_one' ℝ))] with b hb hv hb1
    have hb : 0 < b := hb
    refine (ae_restrict_iff' measurableSet_Ioi).2 (.of_forall fun y (hy : 0 < y) => ?_)
    have hy' := hu b y hy
    have e1 : ∀ z : ℝ, |z| < |v| + 1 → (Real.exp (u b y - z) + 1)⁻¹ ≤ Real.exp (|v| + 1) * Real.exp (-(4 / 4 * y)) := fun z hz => by
      have := fermi_le_of_le (x := u b y - z) (b := 1) one_pos le_rfl
      rw [mul_one, one_mul] at this
      refine this.trans ?_
      rw [← Real.exp_add]
      refine Real.exp_le_exp.2 ?_
      have := (le_abs_self z).trans hz.le
      linarith
    have e2 := e1 _ hv
    have e3 := e1 (-(b * mu b)) (by rwa [abs_neg])
    rw [sub_neg_eq_add] at e3
    have e4 : ‖(b : ℂ) * H (b⁻¹ * y)‖ ≤ C * (1 + y) := by
      rw [norm_mul, Complex.norm_real, Real.norm_of_nonneg hb.le]
      calc b * ‖H (b⁻¹ * y)‖ ≤ b * (C * (1 + b⁻¹ * y)) := by gcongr; exact hC _ (by positivity)
        _ = C * (b + y) := by field_simp
        _ ≤ C * (1 + y) := by gcongr
    simp only [F]
    rw [norm_mul, Complex.norm_real, Real.norm_of_nonneg (by positivity), pow_one]
    calc _ ≤ (Real.exp (|v| + 1) * Real.exp (-(4 / 4 * y)) + Real.exp (|v| + 1) * Real.exp (-(4 / 4 * y))) * (C * (1 + y)) := by gcongr
      _ = _ := by ring
  · refine (ae_restrict_iff' measurableSet_Ioi).2 (.of_forall fun y (hy : 0 < y) => ?_)
    have hb0 : Tendsto (fun b : ℝ => b) (𝓝[>] 0) (𝓝 0) := tendsto_nhdsWithin_of_tendsto_nhds tendsto_id
    have e1 : Tendsto (fun b => u b y) (𝓝[>] 0) (𝓝 y) := by
      have : ContinuousAt (fun b => u b y) 0 := by simp only [u]; fun_prop
      have h0 : u 0 y = y := by simp only [u]; rw [zero_mul, zero_mul, zero_add, ← sq, Real.sqrt_sq hy.le]
      have := this.tendsto.comp hb0
      rwa [h0] at this
    have e2 : Tendsto (fun b : ℝ => (b : ℂ) * H (b⁻¹ * y)) (𝓝[>] 0) (𝓝 (y * c)) := by
      have h1 : Tendsto (fun b : ℝ => b⁻¹ * y) (𝓝[>] 0) atTop := tendsto_inv_nhdsGT_zero.atTop_mul_const hy
      refine ((hlim.comp h1).const_mul (y : ℂ)).congr' ?_
      filter_upwards [self_mem_nhdsWithin] with b hb
      have hb : (b : ℂ) ≠ 0 := Complex.ofReal_ne_zero.2 (ne_of_gt hb)
      have hy : (y : ℂ) ≠ 0 := Complex.ofReal_ne_zero.2 hy.ne'
      simp only [Function.comp]
      push_cast
      field_simp
    have hf : ∀ {g : ℝ → ℝ} {a : ℝ}, Tendsto g (𝓝[>] 0) (𝓝 a) → Tendsto (fun b => (Real.exp (g b) + 1)⁻¹) (𝓝[>] (0 : ℝ)) (𝓝 (Real.exp a + 1)⁻¹) :=
      fun h => ((Real.continuous_exp.tendsto _).comp h |>.add_const 1).inv₀ (by positivity)
    exact ((Complex.continuous_ofReal.tendsto _).comp ((hf (e1.sub hmu)).add (hf (e1.add hmu)))).mul e2

/-! ### Angular integrals -/

variable {om p : ℝ}

/-- Denominator of the loop, divided by `2E`. -/
noncomputable def htlD (om p v w z : ℝ) : ℂ := Complex.I * om + ((p * v * z + w : ℝ) : ℂ)

theorem htlD_norm (om p v w z : ℝ) : |om| ≤ ‖htlD om p v w z‖ := by
  refine (le_of_eq ?_).trans (Complex.abs_im_le_norm _)
  simp [htlD, -Complex.ofReal_add, -Complex.ofReal_mul]

theorem htlD_ne (ho : om ≠ 0) (p v w z : ℝ) : htlD om p v w z ≠ 0 := fun h => by
  have := htlD_norm om p v w z
  rw [h, norm_zero] at this
  exact (abs_pos.2 ho).not_ge this

noncomputable def htlK (om p v w : ℝ) : ℂ := ∫ z in (-1 : ℝ)..1, (htlD om p v w z)⁻¹
noncomputable def htlJ (om p v w : ℝ) : ℂ := ∫ z in (-1 : ℝ)..1, (htlD om p v w z)⁻¹ * (htlD om p v (-w) z)⁻¹

theorem htlD_inv_norm (ho : om ≠ 0) (p v w z : ℝ) : ‖(htlD om p v w z)⁻¹‖ ≤ |om|⁻¹ := by
  rw [norm_inv]
  exact inv_anti₀ (abs_pos.2 ho) (htlD_norm _ _ _ _ _)

theorem htlD_inv_cont (ho : om ≠ 0) (p v w : ℝ) : Continuous fun z => (htlD om p v w z)⁻¹ :=
  Continuous.inv₀ (by unfold htlD; fun_prop) fun z => htlD_ne ho p v w z

theorem htlK_norm (ho : om ≠ 0) (p v w : ℝ) : ‖htlK om p v w‖ ≤ 2 * |om|⁻¹ := by
  have := intervalIntegral.norm_integral_le_of_norm_le_const (a := -1) (b := 1) (f := fun z => (htlD om p v w z)⁻¹)
    (C := |om|⁻¹) fun z _ => htlD_inv_norm ho p v w z
  refine this.trans (le_of_eq ?_)
  norm_num
  ring

theorem htlJ_norm (ho : om ≠ 0) (p v w : ℝ) : ‖htlJ om p v w‖ ≤ 2 * (|om|⁻¹ * |om|⁻¹) := by
  have := intervalIntegral.norm_integral_le_of_norm_le_const (a := -1) (b := 1) (f := fun z => (htlD om p v w z)⁻¹ * (htlD om p v (-w) z)⁻¹)
    (C := |om|⁻¹ * |om|⁻¹) fun z _ => by
      rw [norm_mul]
      exact mul_le_mul (htlD_inv_norm ho p v w z) (htlD_inv_norm ho p v _ z) (norm_nonneg _) (by positivity)
  refine this.trans (le_of_eq ?_)
  norm_num
  ring

theorem htlD_tendsto {l : Filter ℝ} {v w : ℝ → ℝ} {v0 w0 : ℝ} (hv : Tendsto v l (𝓝 v0)) (hw : Tendsto w l (𝓝 w0)) (z : ℝ) :
    Tendsto (fun x => htlD om p (v x) (w x) z) l (𝓝 (htlD om p v0 w0 z)) := by
  unfold htlD
  exact ((Complex.continuous_ofReal.tendsto _).comp (((hv.const_mul p).mul_const z).add hw)).const_add _

theorem htlK_tendsto (ho : om ≠ 0) {l : Filter ℝ} [l.IsCountablyGenerated] {v w : ℝ → ℝ} {v0 w0 : ℝ}
    (hv : Tendsto v l (𝓝 v0)) (hw : Tendsto w l (𝓝 w0)) : Tendsto (fun x => htlK om p (v x) (w x)) l (𝓝 (htlK om p v0 w0)) := by
  refine intervalIntegral.tendsto_integral_filter_of_dominated_convergence (fun _ => |om|⁻¹)
    (.of_forall fun x => (htlD_inv_cont ho p _ _).aestronglyMeasurable) (.of_forall fun x => .of_forall fun z _ => htlD_inv_norm ho p _ _ z)
    (by simp) (.of_forall fun z _ => (htlD_tendsto hv hw z).inv₀ (htlD_ne ho _ _ _ _))

theorem htlJ_tendsto (ho : om ≠ 0) {l : Filter ℝ} [l.IsCountablyGenerated] {v w : ℝ → ℝ} {v0 w0 : ℝ}
    (hv : Tendsto v l (𝓝 v0)) (hw : Tendsto w l (𝓝 w0)) : Tendsto (fun x => htlJ om p (v x) (w x)) l (𝓝 (htlJ om p v0 w0)) := by
  refine intervalIntegral.tendsto_integral_filter_of_dominated_convergence (fun _ => |om|⁻¹ * |om|⁻¹)
    (.of_forall fun x => ((htlD_inv_cont ho p _ _).mul (htlD_inv_cont ho p _ _)).aestronglyMeasurable)
    (.of_forall fun x => .of_forall fun z _ => ?_)
    (by simp) (.of_forall fun z _ => ((htlD_tendsto hv hw z).inv₀ (htlD_ne ho _ _ _ _)).mul ((htlD_tendsto hv hw.neg z).inv₀ (htlD_ne ho _ _ _ _)))
  rw [norm_mul]
  exact mul_le_mul (htlD_inv_norm ho p _ _ z) (htlD_inv_norm ho p _ _ z) (norm_nonneg _) (by positivity)

theorem htlK_sub (ho : om ≠ 0) (p v w : ℝ) : htlK om p v w - htlK om p v (-w) = -(2 * w) * htlJ om p v w := by
  rw [htlK, htlK, htlJ, ← intervalIntegral.integral_sub ((htlD_inv_cont ho p _ _).intervalIntegrable _ _)
    ((htlD_inv_cont ho p _ _).intervalIntegrable _ _), ← intervalIntegral.integral_const_mul]
  refine intervalIntegral.integral_congr fun z _ => ?_
  have h1 := htlD_ne ho p v w z
  have h2 := htlD_ne ho p v (-w) z
  have h3 : htlD om p v (-w) z - htlD om p v w z = -(2 * w) := by simp only [htlD]; push_cast; ring
  rw [inv_sub_inv h1 h2, h3, div_eq_mul_inv, mul_inv]

/-- Opposite frequencies are related by reflection of the angle. -/
theorem htlK_neg (om p v w : ℝ) : htlK (-om) p v w = -htlK om p v (-w) := by
  rw [htlK, htlK, ← intervalIntegral.integral_neg]
  have := intervalIntegral.integral_comp_neg (a := -1) (b := 1) (fun z => (htlD (-om) p v w z)⁻¹)
  rw [neg_neg] at this
  rw [← this]
  refine intervalIntegral.integral_congr fun z _ => ?_
  rw [← inv_neg]
  congr 1
  simp only [htlD]
  push_cast
  ring

theorem htlK_limit (ho : om ≠ 0) (hp : p ≠ 0) :
    p * htlK om p 1 0 = Complex.log ((Complex.I * om + p) / (Complex.I * om - p)) := by
  have h := int_inv (a := Complex.I * om) (b := p) (Complex.ofReal_ne_zero.2 hp) fun z _ => by
    have := htlD_ne ho p 1 0 z
    rwa [htlD, mul_one, add_zero, Complex.ofReal_mul] at this
  have e : htlK om p 1 0 = ∫ z in (-1 : ℝ)..1, (Complex.I * om + p * z)⁻¹ := by
    simp only [htlK, htlD, mul_one, add_zero, Complex.ofReal_mul]
  rw [e, h, mul_div_cancel₀ _ (Complex.ofReal_ne_zero.2 hp)]

theorem htlJ_limit (ho : om ≠ 0) (hp : p ≠ 0) : ((om : ℂ) ^ 2 + p ^ 2) * htlJ om p 1 0 = -2 := by
  have hp' : (p : ℂ) ≠ 0 := Complex.ofReal_ne_zero.2 hp
  have hne : ∀ z : ℝ, Complex.I * om + p * z ≠ 0 := fun z => by
    have := htlD_ne ho p 1 0 z
    rwa [htlD, mul_one, add_zero, Complex.ofReal_mul] at this
  have e : htlJ om p 1 0 = ∫ z in (-1 : ℝ)..1, (Complex.I * om + p * z)⁻¹ * (Complex.I * om + p * z)⁻¹ := by
    simp only [htlJ, htlD, mul_one, add_zero, Complex.ofReal_mul, neg_zero]
  have hd : ∀ z : ℝ, HasDerivAt (fun z : ℝ => -(p : ℂ)⁻¹ * (Complex.I * om + p * z)⁻¹)
      ((Complex.I * om + p * z)⁻¹ * (Complex.I * om + p * z)⁻¹) z := fun z => by
    have h1 : HasDerivAt (fun z : ℝ => (Complex.I * om + p * z : ℂ)) p z := by
      simpa using (((hasDerivAt_id z).ofReal_comp).const_mul (p : ℂ)).const_add (Complex.I * om)
    refine ((h1.inv (hne z)).const_mul (-(p : ℂ)⁻¹)).congr_deriv ?_
    have := hne z
    field_simp
  have hc : Continuous fun z : ℝ => (Complex.I * om + p * z : ℂ)⁻¹ := Continuous.inv₀ (by fun_prop) hne
  rw [e, intervalIntegral.integral_eq_sub_of_hasDerivAt (fun z _ => hd z) ((hc.mul hc).intervalIntegrable _ _)]
  have h1 := hne 1
  have h2 := hne (-1)
  have h3 : (om : ℂ) ^ 2 + p ^ 2 = -((Complex.I * om + p * ((1 : ℝ) : ℂ)) * (Complex.I * om + p * ((-1 : ℝ) : ℂ))) := by
    push_cast
    linear_combination (om : ℂ) ^ 2 * Complex.I_sq
  have h4 : Complex.I * om + p * ((1 : ℝ) : ℂ) - (Complex.I * om + p * ((-1 : ℝ) : ℂ)) = 2 * p := by push_cast; ring
  rw [h3]
  generalize Complex.I * om + p * ((1 : ℝ) : ℂ) = x at *
  generalize Complex.I * om + p * ((-1 : ℝ) : ℂ) = y at *
  field_simp
  linear_combination -h4

theorem TL_htl (ho : om ≠ 0) (hp : p ≠ 0) {q e : ℝ} (hq : 0 < q) (he : 0 < e) :
    TL q om p e ((0 : ℝ) : ℂ) = (p * (q / e) : ℝ) * htlK om p (q / e) ((om ^ 2 + p ^ 2) / (2 * e)) := by
  have he' : (e : ℂ) ≠ 0 := Complex.ofReal_ne_zero.2 he.ne'
  have hb : ((2 * p * q : ℝ) : ℂ) ≠ 0 := Complex.ofReal_ne_zero.2 (by positivity)
  have hD : ∀ z : ℝ, R0 om p e ((0 : ℝ) : ℂ) + ((2 * p * q : ℝ) : ℂ) * z = (2 * e) * htlD om p (q / e) ((om ^ 2 + p ^ 2) / (2 * e)) z := fun z => by
    simp only [R0, htlD]
    push_cast
    field_simp
    ring
  have hne : ∀ z ∈ Icc (-1 : ℝ) 1, R0 om p e ((0 : ℝ) : ℂ) + ((2 * p * q : ℝ) : ℂ) * z ≠ 0 := fun z _ => by
    rw [hD]
    exact mul_ne_zero (mul_ne_zero two_ne_zero he') (htlD_ne ho _ _ _ _)
  have hI := int_inv hb hne
  have e1 : TL q om p e ((0 : ℝ) : ℂ) = ((2 * p * q : ℝ) : ℂ) * ∫ z in (-1 : ℝ)..1, (R0 om p e ((0 : ℝ) : ℂ) + ((2 * p * q : ℝ) : ℂ) * z)⁻¹ := by
    rw [hI, TL]
    field_simp
    congr 2 <;> push_cast <;> ring
  rw [e1]
  simp only [hD, mul_inv]
  rw [intervalIntegral.integral_const_mul, htlK]
  push_cast
  field_simp

end Qcd
