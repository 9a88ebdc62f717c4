import Verif.Lemmas.SecantFailure

/-! # Lemmas: the charge density at low temperature is flat below the mass, and cubic at large chemical potentials -/

namespace Qcd
open MeasureTheory Filter Topology Set
open consts (Consts Integral)
open qcd.thermal.quark

theorem fermi_lipschitz (u v : ℝ) : |(Real.exp u + 1)⁻¹ - (Real.exp v + 1)⁻¹| ≤ |u - v| * Real.exp (-(min u v)) := by
  wlog h : u ≤ v generalizing u v
  · have := this v u (le_of_not_ge h)
    rwa [abs_sub_comm, abs_sub_comm u, min_comm]
  rw [min_eq_left h, abs_sub_comm u v, abs_of_nonneg (sub_nonneg.2 h)]
  have e1 : (Real.exp u + 1)⁻¹ - (Real.exp v + 1)⁻¹ = (Real.exp v - Real.exp u) * ((Real.exp u + 1) * (Real.exp v + 1))⁻¹ := by
    have := Real.exp_pos u; have := Real.exp_pos v
    field_simp; ring
  have h1 : 0 ≤ Real.exp v - Real.exp u := sub_nonneg.2 (Real.exp_le_exp.2 h)
  rw [e1, abs_of_nonneg (by positivity)]
  have h2 : ((Real.exp u + 1) * (Real.exp v + 1))⁻¹ ≤ (Real.exp u * Real.exp v)⁻¹ := by
    have := Real.exp_pos u; have := Real.exp_pos v
    apply inv_anti₀ (by positivity)
    gcongr <;> linarith
  calc _ ≤ (Real.exp v - Real.exp u) * (Real.exp u * Real.exp v)⁻¹ := by gcongr
    _ = Real.exp (-u) * (1 - Real.exp (-(v - u))) := by
        rw [show -(v - u) = u - v by ring, Real.exp_sub, Real.exp_neg]
        have := Real.exp_pos u; have := Real.exp_pos v
        field_simp
    _ ≤ Real.exp (-u) * (v - u) := by
        refine mul_le_mul_of_nonneg_left ?_ (Real.exp_pos _).le
        linarith [Real.add_one_le_exp (-(v - u))]
    _ = _ := mul_comm _ _

theorem occ_lipschitz {m M b x y q : ℝ} (hM : M < |m|) (hb : 1 ≤ b) (hx : |x| ≤ M) (hy : |y| ≤ M) (hq : 0 < q) :
    |occ m b y q - occ m b x q| ≤ 2 * |y - x| * (b * Real.exp (-(b * ((|m| - M) / 2)))) * (Real.exp (M / 2) * Real.exp (-(q / 2))) := by
  set E := Real.sqrt (m * m + q * q) with hE
  have hEm : |m| ≤ E := Real.le_sqrt_of_sq_le (by rw [sq_abs]; nlinarith [mul_self_nonneg q])
  have hEq : q ≤ E := Real.le_sqrt_of_sq_le (by nlinarith [mul_self_nonneg m])
  obtain ⟨x1, x2⟩ := abs_le.1 hx
  obtain ⟨y1, y2⟩ := abs_le.1 hy
  have ex (t : ℝ) (ht : b * (E - M) ≤ t) : Real.exp (-t) ≤ Real.exp (-(b * ((|m| - M) / 2))) * (Real.exp (M / 2) * Real.exp (-(q / 2))) := by
    rw [← Real.exp_add, ← Real.exp_add]
    apply Real.exp_le_exp.2
    have h1 : b * ((|m| - M) / 2) ≤ b * ((E - M) / 2) := by gcongr
    have h2 : (E - M) / 2 ≤ b * ((E - M) / 2) := by
      have : 0 ≤ (E - M) / 2 := by linarith
      nlinarith
    have h3 : b * (E - M) = b * ((E - M) / 2) + b * ((E - M) / 2) := by ring
    linarith
  have l1 := fermi_lipschitz ((E - y) * b) ((E - x) * b)
  have l2 := fermi_lipschitz ((E + x) * b) ((E + y) * b)
  have b0 : 0 ≤ b := by linarith
  have m1 := ex (min ((E - y) * b) ((E - x) * b)) (le_min (by nlinarith) (by nlinarith))
  have m2 := ex (min ((E + x) * b) ((E + y) * b)) (le_min (by nlinarith) (by nlinarith))
  rw [show (E - y) * b - (E - x) * b = b * (x - y) by ring, abs_mul, abs_of_nonneg b0, abs_sub_comm x y] at l1
  rw [show (E + x) * b - (E + y) * b = b * (x - y) by ring, abs_mul, abs_of_nonneg b0, abs_sub_comm x y] at l2
  have p1 : b * |y - x| * Real.exp (-(min ((E - y) * b) ((E - x) * b))) ≤ b * |y - x| * (Real.exp (-(b * ((|m| - M) / 2))) * (Real.exp (M / 2) * Real.exp (-(q / 2)))) := by
    gcongr
  have p2 : b * |y - x| * Real.exp (-(min ((E + x) * b) ((E + y) * b))) ≤ b * |y - x| * (Real.exp (-(b * ((|m| - M) / 2))) * (Real.exp (M / 2) * Real.exp (-(q / 2)))) := by
    gcongr
  have e : occ m b y q - occ m b x q = ((Real.exp ((E - y) * b) + 1)⁻¹ - (Real.exp ((E - x) * b) + 1)⁻¹) +
      ((Real.exp ((E + x) * b) + 1)⁻¹ - (Real.exp ((E + y) * b) + 1)⁻¹) := by
    unfold occ; rw [← hE]; ring
  rw [e]
  refine (abs_add_le _ _).trans ?_
  linarith

theorem occ_integrable (m mu : ℝ) {b : ℝ} (hb : 0 < b) : IntegrableOn (fun y => y ^ 2 * occ m b mu y) (Ioi 0) := by
  refine (Dom.bound_integrable (b0 := 4 * b) (by positivity) (2 * Real.exp (b * |mu|)) 2).mono'
    (Measurable.aestronglyMeasurable (by have := occ_meas m b mu; fun_prop)) ?_
  refine (ae_restrict_iff' measurableSet_Ioi).2 (.of_forall fun y (hy : 0 < y) => ?_)
  have h := occ_bound (m := m) hb le_rfl (le_refl |mu|) hy
  rw [norm_mul, Real.norm_of_nonneg (by positivity), Real.norm_eq_abs, show 4 * b / 4 * y = b * y by ring]
  calc y ^ 2 * |occ m b mu y| ≤ (1 + y) ^ 2 * (2 * Real.exp (b * |mu|) * Real.exp (-(b * y))) := by
        gcongr
        linarith
    _ = _ := by ring

theorem density_flat (k : Consts ℝ) (m M : ℝ) (hM : M < |m|) (integral : Integral ℝ) :
    ∃ L : ℝ → ℝ, Tendsto L atTop (𝓝 0) ∧ ∀ᶠ b in atTop, ∀ x y, |x| ≤ M → |y| ≤ M →
      |charge_density_with_method .exact k m b y integral - charge_density_with_method .exact k m b x integral| ≤ L b * |y - x| := by
  set J := ∫ q in Ioi (0 : ℝ), 2 * Real.exp (M / 2) * (1 + q) ^ 2 * Real.exp (-(2 / 4 * q)) with hJ
  refine ⟨fun b => k.nc / Real.pi ^ 2 * (b * Real.exp (-(b * ((|m| - M) / 2)))) * J, ?_, ?_⟩
  · have hd : 0 < (|m| - M) / 2 := by linarith
    have h : Tendsto (fun b : ℝ => b * Real.exp (-(b * ((|m| - M) / 2)))) atTop (𝓝 0) := by
      have h1 := (Real.tendsto_pow_mul_exp_neg_atTop_nhds_zero 1).comp (tendsto_id.atTop_mul_const hd)
      have h2 := h1.const_mul ((|m| - M) / 2)⁻¹
      rw [mul_zero] at h2
      refine h2.congr fun b => ?_
      simp only [Function.comp, pow_one, id]
      rw [← mul_assoc, mul_comm ((|m| - M) / 2)⁻¹, mul_assoc b, mul_inv_cancel₀ hd.ne', mul_one]
    simpa using (h.const_mul (k.nc / Real.pi ^ 2 : ℝ)).mul_const J
  · filter_upwards [eventually_ge_atTop 1] with b hb x y hx hy
    have b0 : 0 < b := by linarith
    rw [density_integral, density_integral, ← mul_sub, ← integral_sub (occ_integrable m y b0) (occ_integrable m x b0), abs_mul,
      abs_of_nonneg (by positivity)]
    have h : |∫ q in Ioi (0 : ℝ), (q ^ 2 * occ m b y q - q ^ 2 * occ m b x q)| ≤ ∫ q in Ioi (0 : ℝ),
        |y - x| * (b * Real.exp (-(b * ((|m| - M) / 2)))) * (2 * Real.exp (M / 2) * (1 + q) ^ 2 * Real.exp (-(2 / 4 * q))) := by
      rw [← Real.norm_eq_abs]
      refine norm_integral_le_of_norm_le ((Dom.bound_integrable (b0 := 2) (by norm_num) (2 * Real.exp (M / 2)) 2).const_mul _) ?_
      refine (ae_restrict_iff' measurableSet_Ioi).2 (.of_forall fun q (hq : 0 < q) => ?_)
      have h1 := occ_lipschitz hM hb hx hy hq
      rw [Real.norm_eq_abs, ← mul_sub, abs_mul, abs_of_nonneg (by positivity)]
      calc q ^ 2 * |occ m b y q - occ m b x q| ≤ (1 + q) ^ 2 * (2 * |y - x| * (b * Real.exp (-(b * ((|m| - M) / 2)))) * (Real.exp (M / 2) * Real.exp (-(q / 2)))) := by
            gcongr
            linarith
        _ = _ := by rw [show 2 / 4 * q = q / 2 by ring]; ring
    rw [integral_const_mul, ← hJ] at h
    calc _ ≤ (k.nc / Real.pi ^ 2 : ℝ) * (|y - x| * (b * Real.exp (-(b * ((|m| - M) / 2)))) * J) := by gcongr
      _ = _ := by ring

theorem density_large (k : Consts ℝ) (hk : 0 < k.nc) (m : ℝ) (integral : Integral ℝ) {y : ℝ → ℝ} (hy : Tendsto y atTop atTop) :
    Tendsto (fun b => charge_density_with_method .exact k m b (y b) integral / y b) atTop atTop := by
  have h0 : charge_density_zero_temp k 0 1 = k.nc / (3 * Real.pi ^ 2) := by
    rw [C51_density_value k 0 1 (by norm_num)]
    norm_num
  have h1 := C101_low_temperature k integral (l := atTop) (m := fun b => m / y b) (b := fun b => b * y b) (mu := fun _ => 1)
    (tendsto_const_nhds.div_atTop hy) (tendsto_id.atTop_mul_atTop₀ hy) tendsto_const_nhds
  have hp : (0 : ℝ) < charge_density_zero_temp k 0 1 := by
    rw [h0]
    have : (0 : ℝ) < k.nc := by exact_mod_cast hk
    have := Real.pi_pos
    positivity
  refine ((hy.atTop_mul_atTop₀ hy).atTop_mul_pos hp h1).congr' ?_
  filter_upwards [hy.eventually_gt_atTop 0] with b hb
  have e := C101_units k (m / y b) (b * y b) 1 hb integral
  rw [mul_div_cancel₀ _ hb.ne', mul_div_cancel_right₀ _ hb.ne', mul_one] at e
  rw [e]
  field_simp

theorem density_family (k : Consts ℝ) (hk : 0 < k.nc) (m : ℝ) (integral : Integral ℝ) :
    SecantFailure.Family (fun b mu => charge_density_with_method .exact k m b mu integral) |m| where
  mono := by filter_upwards [eventually_gt_atTop 0] with b hb using C50_strictMono k m b hb hk integral
  flat M hM := density_flat k m M hM integral
  zero := .of_forall fun b => (C50_zero .exact exact_zero k m b integral).1
  large _ hy := density_large k hk m integral hy

end Qcd
