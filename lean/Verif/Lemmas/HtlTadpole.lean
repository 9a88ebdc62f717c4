import Verif.Lemmas.HtlLeg

/-! # Tadpole integrals at high temperature -/

set_option linter.unusedSimpArgs false

namespace Qcd
open MeasureTheory Filter Topology Set

theorem bose_neg {x b : ℝ} (hx : 0 < x) (hb : 0 < b) :
    bose_distribution_zero_chempot (-x) b = -(1 + bose_distribution_zero_chempot x b) := by
  rw [boseZ_real, boseZ_real, neg_mul, Real.exp_neg]
  have hx : 1 < Real.exp (x * b) := Real.one_lt_exp_iff.2 (by positivity)
  have e1 : Real.exp (x * b) - 1 ≠ 0 := by linarith
  have e2 : (Real.exp (x * b))⁻¹ - 1 ≠ 0 := by
    have := inv_lt_one_of_one_lt₀ hx
    linarith
  have e3 := (Real.exp_pos (x * b)).ne'
  generalize Real.exp (x * b) = x at *
  have e4 : 1 - x ≠ 0 := fun h => e1 (by linarith)
  have : x⁻¹ - 1 = (1 - x) / x := by field_simp
  rw [this, inv_div]
  field_simp
  ring

/-- The derivative of the Bose distribution contributes nothing to the leading order. -/
theorem Hot.deriv {m : ℝ} (hm : m ≠ 0) {K : ℝ → ℂ} (hK : Grow 0 K) {C : ℝ} (hC : ∀ q, 0 < q → ‖K q‖ ≤ C) :
    Hot (fun b q => ((b * bose_distribution_zero_chempot (energy q m) b * bose_distribution_zero_chempot (-energy q m) b : ℝ) : ℂ) * K q) 0 := by
  have hm' := abs_pos.2 hm
  have hC0 : 0 ≤ C := (norm_nonneg _).trans (hC 1 one_pos)
  have h0 : (0 : ℂ) = ∫ y in Ioi (0 : ℝ), (fun _ => (0 : ℂ)) y := by simp
  rw [h0]
  have hbd : ∀ b y : ℝ, 0 < b → b < 1 → 0 < y → ‖(b : ℂ) * (((b * bose_distribution_zero_chempot (energy (b⁻¹ * y) m) b *
      bose_distribution_zero_chempot (-energy (b⁻¹ * y) m) b : ℝ) : ℂ) * K (b⁻¹ * y))‖ ≤
        b * (C * (b / (energy (b⁻¹ * y) m * b) * (1 + (energy (b⁻¹ * y) m * b)⁻¹)) * Real.exp (-(energy (b⁻¹ * y) m * b / 2))) := by
    intro b y hb _ hy
    have hq : 0 < b⁻¹ * y := by positivity
    have hep := hq.trans_le ((Line.massive m).le _ hq)
    obtain ⟨h2, h3⟩ := bose_bound hep hb
    rw [bose_neg hep hb, norm_mul, norm_mul, Complex.norm_real, Complex.norm_real, Real.norm_of_nonneg hb.le, mul_neg, norm_neg,
      Real.norm_of_nonneg (by positivity)]
    have h4 := hC _ hq
    generalize energy (b⁻¹ * y) m = x at *
    generalize bose_distribution_zero_chempot x b = n at *
    have hxb : 0 < x * b := by positivity
    have h5 : n ≤ (x * b)⁻¹ := h3.trans (by
      rw [div_eq_inv_mul]
      refine mul_le_of_le_one_right (by positivity) (Real.exp_le_one_iff.2 (by linarith)))
    calc b * (b * n * (1 + n) * ‖K (b⁻¹ * y)‖) ≤ b * (b * (Real.exp (-(x * b / 2)) / (x * b)) * (1 + (x * b)⁻¹) * C) := by gcongr
      _ = _ := by ring
  refine Hot.of_scaled (F := fun b q => ((b * bose_distribution_zero_chempot (energy q m) b * bose_distribution_zero_chempot (-energy q m) b : ℝ) : ℂ) * K q)
    (B := fun y => C * (1 / |m| + 1 / |m| ^ 2) * Real.exp (-(y / 2)))
    (fun b => (Complex.measurable_ofReal.comp ((measurable_const.mul (bose_meas (energy_meas m) b)).mul (bose_meas (energy_meas m).neg b))).mul hK.meas)
    (exp_half_integrable _) (fun b hb => ((Dom.bose_deriv hb hm).mul hK).integrable hb le_rfl) ?_ ?_
  · intro b y hb hb1 hy
    refine (hbd b y hb hb1 hy).trans ?_
    have hq : 0 < b⁻¹ * y := by positivity
    have g1 := (Line.massive m).le _ hq
    have g2 := abs_le_energy (b⁻¹ * y) m
    generalize energy (b⁻¹ * y) m = x at *
    have hx : 0 < x := hm'.trans_le g2
    have hu : y ≤ x * b := by
      calc y = b⁻¹ * y * b := by field_simp
        _ ≤ _ := by gcongr
    have h6 : Real.exp (-(x * b / 2)) ≤ Real.exp (-(y / 2)) := by gcongr
    calc b * (C * (b / (x * b) * (1 + (x * b)⁻¹)) * Real.exp (-(x * b / 2)))
        = C * (b / x + 1 / x ^ 2) * Real.exp (-(x * b / 2)) := by field_simp
      _ ≤ C * (1 / |m| + 1 / |m| ^ 2) * Real.exp (-(y / 2)) := by gcongr
  · intro y hy
    rw [tendsto_zero_iff_norm_tendsto_zero]
    have hb0 : Tendsto (fun b : ℝ => b) (𝓝[>] 0) (𝓝 0) := tendsto_nhdsWithin_of_tendsto_nhds tendsto_id
    have hu := (Line.massive m).scaled hy
    have := hb0.mul (((((hb0.div hu hy.ne').mul ((hu.inv₀ hy.ne').const_add 1)).const_mul C)).mul ((Real.continuous_exp.tendsto _).comp (hu.div_const 2).neg))
    rw [zero_mul] at this
    refine tendsto_of_tendsto_of_tendsto_of_le_of_le' tendsto_const_nhds this (.of_forall fun _ => norm_nonneg _) ?_
    filter_upwards [self_mem_nhdsWithin, nhdsWithin_le_nhds (gt_mem_nhds (zero_lt_one' ℝ))] with b h0 h1
    exact hbd b y h0 h1 hy

/-! ### The Bose distribution as a function of the square of the energy -/

/-- `n(u)/u` at unit temperature. -/
noncomputable def nu1 (u : ℝ) : ℝ := (Real.exp u - 1)⁻¹ / u

noncomputable def nu1' (u : ℝ) : ℝ := -(Real.exp u * ((Real.exp u - 1)⁻¹) ^ 2) / u - (Real.exp u - 1)⁻¹ / u ^ 2

theorem nu1_deriv {u : ℝ} (hu : 0 < u) : HasDerivAt nu1 (nu1' u) u := by
  have h1 := exp_sub_one_pos hu
  have h2 := (((Real.hasDerivAt_exp u).sub_const 1).inv h1).div (hasDerivAt_id u) hu.ne'
  refine h2.congr_deriv ?_
  simp only [nu1', id, Pi.inv_apply]
  field_simp

theorem nu1_bound {u : ℝ} (hu : 0 < u) : |nu1' u| ≤ Real.exp (-(u / 2)) * (1 / u ^ 2 + 2 / u ^ 3) := by
  obtain ⟨h1, h2⟩ := bose_bound hu one_pos
  rw [boseZ_real, mul_one] at h1 h2
  have h3 := exp_sub_one_pos hu
  have h4 : Real.exp u * ((Real.exp u - 1)⁻¹) ^ 2 = (Real.exp u - 1)⁻¹ * (1 + (Real.exp u - 1)⁻¹) := by
    field_simp
    ring
  rw [nu1', h4]
  generalize (Real.exp u - 1)⁻¹ = n at *
  have h5 : n ≤ 1 / u := h2.trans (div_le_div_of_nonneg_right (Real.exp_le_one_iff.2 (by linarith)) hu.le)
  have h6 : n * (1 + n) ≤ Real.exp (-(u / 2)) / u * (1 + 1 / u) := by gcongr
  rw [show -(n * (1 + n)) / u - n / u ^ 2 = -(n * (1 + n) / u + n / u ^ 2) by ring, abs_neg, abs_of_nonneg (by positivity)]
  calc n * (1 + n) / u + n / u ^ 2 ≤ Real.exp (-(u / 2)) / u * (1 + 1 / u) / u + (Real.exp (-(u / 2)) / u) / u ^ 2 := by gcongr
    _ = _ := by field_simp; ring

/-- The same function of the square. -/
noncomputable def psi (x : ℝ) : ℝ := nu1 (Real.sqrt x)

theorem psi_deriv {x : ℝ} (hx : 0 < x) : HasDerivAt psi (nu1' (Real.sqrt x) * (1 / (2 * Real.sqrt x))) x :=
  (nu1_deriv (Real.sqrt_pos.2 hx)).comp x (Real.hasDerivAt_sqrt hx.ne')

theorem psi_diff {y a : ℝ} (hy : 0 < y) (ha : 0 ≤ a) :
    |psi (y ^ 2 + a) - psi (y ^ 2)| ≤ Real.exp (-(y / 2)) * (1 / y ^ 2 + 2 / y ^ 3) * (1 / (2 * y)) * a := by
  have h := (convex_Ici (y ^ 2)).norm_image_sub_le_of_norm_hasDerivWithin_le (f := psi) (f' := fun x => nu1' (Real.sqrt x) * (1 / (2 * Real.sqrt x)))
    (C := Real.exp (-(y / 2)) * (1 / y ^ 2 + 2 / y ^ 3) * (1 / (2 * y))) (fun x hx => (psi_deriv (lt_of_lt_of_le (by positivity) hx)).hasDerivWithinAt)
    (fun x (hx : y ^ 2 ≤ x) => ?_) (x := y ^ 2) (y := y ^ 2 + a) (mem_Ici.2 le_rfl) (mem_Ici.2 (by linarith))
  · rw [show y ^ 2 + a - y ^ 2 = a by ring, Real.norm_eq_abs, Real.norm_of_nonneg ha] at h
    exact h
  · have h1 : y ≤ Real.sqrt x := Real.le_sqrt_of_sq_le hx
    have h2 : 0 < Real.sqrt x := hy.trans_le h1
    rw [Real.norm_eq_abs, abs_mul, abs_of_pos (by positivity : 0 < 1 / (2 * Real.sqrt x))]
    refine mul_le_mul ((nu1_bound h2).trans ?_) ?_ (by positivity) (by positivity)
    · gcongr
    · gcongr

theorem nu1_cube {y : ℝ} (hy : 0 < y) : 0 ≤ y ^ 3 * nu1 y ∧ y ^ 3 * nu1 y ≤ y * Real.exp (-(y / 2)) := by
  obtain ⟨h1, h2⟩ := bose_bound hy one_pos
  rw [boseZ_real, mul_one] at h1 h2
  rw [nu1]
  refine ⟨by positivity, ?_⟩
  calc y ^ 3 * ((Real.exp y - 1)⁻¹ / y) ≤ y ^ 3 * ((Real.exp (-(y / 2)) / y) / y) := by gcongr
    _ = _ := by field_simp

theorem nu1'_meas : Measurable nu1' := by unfold nu1'; fun_prop

theorem integrable_nu1' : IntegrableOn (fun y : ℝ => y ^ 3 * nu1' y) (Ioi 0) := by
  refine (Dom.bound_integrable (b0 := 2) two_pos 2 1).mono' ((measurable_id.pow_const 3).mul nu1'_meas).aestronglyMeasurable
    ((ae_restrict_iff' measurableSet_Ioi).2 (.of_forall fun y (hy : 0 < y) => ?_))
  simp only [Pi.mul_apply, id, Real.norm_eq_abs, abs_mul]
  rw [abs_of_pos (by positivity : 0 < y ^ 3), pow_one, show -(2 / 4 * y) = -(y / 2) by ring]
  calc y ^ 3 * |nu1' y| ≤ y ^ 3 * (Real.exp (-(y / 2)) * (1 / y ^ 2 + 2 / y ^ 3)) := by gcongr; exact nu1_bound hy
    _ = (2 + y) * Real.exp (-(y / 2)) := by field_simp; ring
    _ ≤ _ := by gcongr; linarith

theorem integral_nu1' : ∫ y in Ioi (0 : ℝ), y ^ 3 * nu1' y = -(Real.pi ^ 2 / 2) := by
  have hm : IntegrableOn (fun y : ℝ => 3 * (y * (Real.exp y - 1)⁻¹)) (Ioi 0) := integrable_bose_moment.const_mul 3
  have h := integral_Ioi_of_hasDerivAt_of_tendsto (a := 0) (f := fun y : ℝ => y ^ 3 * nu1 y)
    (f' := fun y : ℝ => 3 * (y * (Real.exp y - 1)⁻¹) + y ^ 3 * nu1' y) (m := 0) ?_ ?_ (hm.add integrable_nu1') ?_
  · rw [integral_add hm integrable_nu1', integral_const_mul, integral_bose_moment] at h
    norm_num at h
    linarith
  · have h0 : Tendsto (fun y : ℝ => y * Real.exp (-(y / 2))) (𝓝[≥] 0) (𝓝 0) := by
      have : Continuous fun y : ℝ => y * Real.exp (-(y / 2)) := by fun_prop
      have := (this.tendsto 0).mono_left (nhdsWithin_le_nhds (s := Ici 0))
      simpa using this
    have : Tendsto (fun y : ℝ => y ^ 3 * nu1 y) (𝓝[≥] 0) (𝓝 ((0 : ℝ) ^ 3 * nu1 0)) := by
      rw [zero_pow three_ne_zero, zero_mul]
      refine tendsto_of_tendsto_of_tendsto_of_le_of_le' tendsto_const_nhds h0 ?_ ?_ <;> filter_upwards [self_mem_nhdsWithin] with y hy <;>
        rcases (show (0 : ℝ) ≤ y from hy).eq_or_lt with rfl | h
      · simp
      · exact (nu1_cube h).1
      · simp
      · exact (nu1_cube h).2
    exact this
  · intro y (hy : 0 < y)
    refine ((hasDerivAt_pow 3 y).mul (nu1_deriv hy)).congr_deriv ?_
    simp only [nu1]
    push_cast
    field_simp
  · refine tendsto_of_tendsto_of_tendsto_of_le_of_le' tendsto_const_nhds (h := fun y : ℝ => y * Real.exp (-(y / 2))) ?_ ?_ ?_
    · have h1 := Real.tendsto_pow_mul_exp_neg_atTop_nhds_zero 1
      have h2 := (h1.comp (tendsto_id.atTop_div_const (two_pos (α := ℝ)))).const_mul 2
      rw [mul_zero] at h2
      refine h2.congr fun y => ?_
      simp only [Function.comp, id, pow_one]
      ring
    · filter_upwards [eventually_gt_atTop 0] with y hy using (nu1_cube hy).1
    · filter_upwards [eventually_gt_atTop 0] with y hy using (nu1_cube hy).2

/-- Difference of the massive and of the massless tadpole. -/
theorem Hot.diff {m : ℝ} (hm : m ≠ 0) :
    Hot (fun b q => ((bose_distribution_zero_chempot (energy q m) b : ℝ) : ℂ) * ((q : ℂ) * q * q * q * ((energy q m : ℝ) : ℂ)⁻¹)
      - ((bose_distribution_zero_chempot q b : ℝ) : ℂ) * ((q : ℂ) * q * q)) ((m : ℂ) ^ 2 * (-(Real.pi ^ 2 / 4))) := by
  have hlim : ((m : ℂ) ^ 2 * (-(Real.pi ^ 2 / 4))) = ∫ y in Ioi (0 : ℝ), (((y ^ 3 * nu1' y) * (m ^ 2 / 2) : ℝ) : ℂ) := by
    rw [integral_complex_ofReal, integral_mul_const, integral_nu1']
    push_cast
    ring
  have key : ∀ b y : ℝ, 0 < b → 0 < y → (b : ℂ) * (((bose_distribution_zero_chempot (energy (b⁻¹ * y) m) b : ℝ) : ℂ) *
        (((b⁻¹ * y : ℝ) : ℂ) * (b⁻¹ * y : ℝ) * (b⁻¹ * y : ℝ) * (b⁻¹ * y : ℝ) * ((energy (b⁻¹ * y) m : ℝ) : ℂ)⁻¹)
      - ((bose_distribution_zero_chempot (b⁻¹ * y) b : ℝ) : ℂ) * (((b⁻¹ * y : ℝ) : ℂ) * (b⁻¹ * y : ℝ) * (b⁻¹ * y : ℝ)))
        = ((y ^ 4 * ((psi (y ^ 2 + (b * m) ^ 2) - psi (y ^ 2)) / b ^ 2) : ℝ) : ℂ) := by
    intro b y hb hy
    have h1 : energy (b⁻¹ * y) m * b = Real.sqrt (y ^ 2 + (b * m) ^ 2) := by
      rw [energy_real, show m * m + b⁻¹ * y * (b⁻¹ * y) = (y ^ 2 + (b * m) ^ 2) / b ^ 2 by field_simp; ring,
        Real.sqrt_div (by positivity), Real.sqrt_sq hb.le]
      field_simp
    have hpos : 0 < Real.sqrt (y ^ 2 + (b * m) ^ 2) := Real.sqrt_pos.2 (by positivity)
    have h2 : energy (b⁻¹ * y) m = Real.sqrt (y ^ 2 + (b * m) ^ 2) / b := by rw [← h1]; field_simp
    have h3 : b⁻¹ * y * b = y := by field_simp
    rw [boseZ_real, boseZ_real, h1, h2, h3, psi, psi, Real.sqrt_sq hy.le, nu1, nu1]
    generalize Real.sqrt (y ^ 2 + (b * m) ^ 2) = u at *
    norm_cast
    field_simp
  have hd : ∀ b, 0 < b → Dom b fun c q => ((bose_distribution_zero_chempot (energy q m) c : ℝ) : ℂ) * ((q : ℂ) * q * q * q * ((energy q m : ℝ) : ℂ)⁻¹)
      - ((bose_distribution_zero_chempot q c : ℝ) : ℂ) * ((q : ℂ) * q * q) := fun b hb => by
    have hi := Grow.energy_inv hm
    exact ((Dom.bose_massive hb hm).mul (by grow)).sub (Dom.bose_massless hb (by grow))
  rw [hlim]
  refine Hot.of_scaled (B := fun y => m ^ 2 * 1 * (1 + y) ^ 1 * Real.exp (-(2 / 4 * y))) (fun b => ?_) (Dom.bound_integrable two_pos _ _)
    (fun b hb => (hd b hb).integrable hb le_rfl) ?_ ?_
  · exact (hd 1 one_pos).meas b
  · intro b y hb _ hy
    rw [key b y hb hy, Complex.norm_real, Real.norm_eq_abs, abs_mul, abs_div, abs_of_pos (by positivity : 0 < y ^ 4), abs_of_pos (by positivity : 0 < b ^ 2)]
    have h1 := psi_diff hy (sq_nonneg (b * m))
    calc y ^ 4 * (|psi (y ^ 2 + (b * m) ^ 2) - psi (y ^ 2)| / b ^ 2)
        ≤ y ^ 4 * (Real.exp (-(y / 2)) * (1 / y ^ 2 + 2 / y ^ 3) * (1 / (2 * y)) * (b * m) ^ 2 / b ^ 2) := by gcongr
      _ = m ^ 2 * (1 + y / 2) * Real.exp (-(y / 2)) := by field_simp; ring
      _ ≤ m ^ 2 * (1 + y) * Real.exp (-(y / 2)) := by gcongr; linarith
      _ = _ := by rw [show -(2 / 4 * y) = -(y / 2) by ring]; ring
  · intro y hy
    have h1 := (psi_deriv (by positivity : 0 < y ^ 2)).tendsto_slope_zero_right
    have h2 : Tendsto (fun b : ℝ => (b * m) ^ 2) (𝓝[>] 0) (𝓝[>] 0) := by
      refine tendsto_nhdsWithin_iff.2 ⟨?_, ?_⟩
      · have : Continuous fun b : ℝ => (b * m) ^ 2 := by fun_prop
        have := (this.tendsto 0).mono_left (nhdsWithin_le_nhds (s := Ioi 0))
        simpa using this
      · filter_upwards [self_mem_nhdsWithin] with b hb
        have : b ≠ 0 := ne_of_gt hb
        exact mem_Ioi.2 (by positivity)
    have h3 := ((h1.comp h2).mul_const (m ^ 2)).const_mul (y ^ 4)
    have h4 := (Complex.continuous_ofReal.tendsto _).comp h3
    rw [Real.sqrt_sq hy.le, show y ^ 4 * (nu1' y * (1 / (2 * y)) * m ^ 2) = y ^ 3 * nu1' y * (m ^ 2 / 2) by field_simp] at h4
    refine h4.congr' ?_
    filter_upwards [self_mem_nhdsWithin] with b hb
    rw [key b y hb hy]
    have hb' : b ≠ 0 := ne_of_gt hb
    simp only [Function.comp, smul_eq_mul]
    congr 1
    generalize psi (y ^ 2 + (b * m) ^ 2) = x1
    field_simp

end Qcd
