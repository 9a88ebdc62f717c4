import Verif.Lemmas.HtlIntegrals
import Verif.Props.ChargeDensity

/-! # Helpers for the thermodynamics of the charge density -/

namespace Qcd
open MeasureTheory Filter Topology Set
open consts (Consts Integral)
open qcd.thermal.quark

theorem integrable_sq_fermi (a c : ℝ) : IntegrableOn (fun x : ℝ => (x + c) ^ 2 * (Real.exp x + 1)⁻¹) (Ioi a) := by
  have hc : Continuous fun x : ℝ => (x + c) ^ 2 * (Real.exp x + 1)⁻¹ := by
    refine (by fun_prop : Continuous fun x : ℝ => (x + c) ^ 2).mul (Continuous.inv₀ (by fun_prop) fun x => ?_)
    positivity
  have h0 : IntegrableOn (fun x : ℝ => (x + c) ^ 2 * (Real.exp x + 1)⁻¹) (Ioi 0) := by
    refine (Dom.bound_integrable (b0 := 4) (by norm_num) ((1 + |c|) ^ 2) 2).mono' hc.aestronglyMeasurable
      ((ae_restrict_iff' measurableSet_Ioi).2 (.of_forall fun x (hx : 0 < x) => ?_))
    have h1 := fermi_le_of_le (x := x) (b := 1) one_pos le_rfl
    rw [mul_one, one_mul] at h1
    rw [norm_mul, Real.norm_of_nonneg (by positivity : (0 : ℝ) ≤ (Real.exp x + 1)⁻¹), show (4 : ℝ) / 4 * x = x by ring]
    gcongr
    rw [Real.norm_eq_abs, abs_pow, ← mul_pow]
    gcongr
    calc |x + c| ≤ |x| + |c| := abs_add_le _ _
      _ ≤ (1 + |c|) * (1 + x) := by rw [abs_of_pos hx]; nlinarith [abs_nonneg c]
  rcases le_total a 0 with h | h
  · rw [← Ioc_union_Ioi_eq_Ioi h]
    exact (hc.integrableOn_Icc.mono_set Ioc_subset_Icc_self).union h0
  · exact h0.mono_set (Ioi_subset_Ioi h)

/-- `∫ y² (f(y-ν) - f(y+ν)) dy = π²ν/3 + ν³/3`. -/
theorem integral_fermi_sq_difference (v : ℝ) :
    ∫ y in Ioi (0 : ℝ), y ^ 2 * ((Real.exp (y - v) + 1)⁻¹ - (Real.exp (y + v) + 1)⁻¹) = Real.pi ^ 2 / 3 * v + v ^ 3 / 3 := by
  have e1 := integral_shift_Ioi (fun x => (x + v) ^ 2 * (Real.exp x + 1)⁻¹) (-v)
  have e2 := integral_shift_Ioi (fun x => (x + -v) ^ 2 * (Real.exp x + 1)⁻¹) v
  have i1 := integrable_shift_Ioi (-v) (integrable_sq_fermi (-v) v)
  have i2 := integrable_shift_Ioi v (integrable_sq_fermi v (-v))
  simp only [neg_add_cancel_right, add_neg_cancel_right] at e1 e2 i1 i2
  simp only [mul_sub, sub_eq_add_neg _ v]
  rw [integral_sub i1 i2, e1, e2]
  have s1 := intervalIntegral.integral_Ioi_sub_Ioi' (integrable_sq_fermi (-v) v) (integrable_sq_fermi 0 v)
  have s2 := intervalIntegral.integral_Ioi_sub_Ioi' (integrable_sq_fermi 0 (-v)) (integrable_sq_fermi v (-v))
  have s3 : ∫ x in -v..0, (x + v) ^ 2 * (Real.exp x + 1)⁻¹ = ∫ x in (0 : ℝ)..v, (-x + v) ^ 2 * (1 - (Real.exp x + 1)⁻¹) := by
    have := intervalIntegral.integral_comp_neg (a := 0) (b := v) (fun x => (x + v) ^ 2 * (Real.exp x + 1)⁻¹)
    rw [neg_zero] at this
    rw [← this]
    refine intervalIntegral.integral_congr fun x _ => ?_
    simp only [fermi_neg]
  have hc : Continuous fun x : ℝ => (Real.exp x + 1)⁻¹ := Continuous.inv₀ (by fun_prop) fun x => by positivity
  have s4 : (∫ x in (0 : ℝ)..v, (-x + v) ^ 2 * (1 - (Real.exp x + 1)⁻¹)) + ∫ x in (0 : ℝ)..v, (x + -v) ^ 2 * (Real.exp x + 1)⁻¹ = v ^ 3 / 3 := by
    rw [← intervalIntegral.integral_add (Continuous.intervalIntegrable (by fun_prop) _ _) (Continuous.intervalIntegrable (by fun_prop) _ _)]
    have : ∀ x : ℝ, (-x + v) ^ 2 * (1 - (Real.exp x + 1)⁻¹) + (x + -v) ^ 2 * (Real.exp x + 1)⁻¹ = (x - v) ^ 2 := fun x => by ring
    simp only [this]
    rw [intervalIntegral.integral_comp_sub_right (fun x => x ^ 2) v, integral_pow]
    ring
  have s5 : (∫ x in Ioi (0 : ℝ), (x + v) ^ 2 * (Real.exp x + 1)⁻¹) - ∫ x in Ioi (0 : ℝ), (x + -v) ^ 2 * (Real.exp x + 1)⁻¹ = Real.pi ^ 2 / 3 * v := by
    rw [← integral_sub (integrable_sq_fermi 0 v) (integrable_sq_fermi 0 (-v))]
    have : ∀ x : ℝ, (x + v) ^ 2 * (Real.exp x + 1)⁻¹ - (x + -v) ^ 2 * (Real.exp x + 1)⁻¹ = 4 * v * (x * (Real.exp x + 1)⁻¹) := fun x => by ring
    simp only [this]
    rw [integral_const_mul, integral_fermi_moment]
    ring
  linarith

/-- The difference of the occupations of quarks and antiquarks. -/
noncomputable def occ (m b mu y : ℝ) : ℝ :=
  (Real.exp ((Real.sqrt (m * m + y * y) - mu) * b) + 1)⁻¹ - (Real.exp ((Real.sqrt (m * m + y * y) + mu) * b) + 1)⁻¹

theorem density_integral (k : Consts ℝ) (m b mu : ℝ) (integral : Integral ℝ) :
    charge_density_with_method .exact k m b mu integral = k.nc / Real.pi ^ 2 * ∫ y in Ioi (0 : ℝ), y ^ 2 * occ m b mu y := by
  have h : charge_density_with_method .exact k m b mu integral = ∫ t in (0 : ℝ)..1, charge_density_i k ((1 - t) / t) m b mu / (t * t) := rfl
  rw [h, compactify_real (fun q => charge_density_i k q m b mu), ← integral_const_mul]
  congr 1
  funext q
  simp only [charge_density_i, fermi_real, energy_real, PI2, occ, sub_neg_eq_add]
  ring

theorem occ_bound {m b b0 mu M y : ℝ} (h0 : 0 < b0) (hb : b0 ≤ b) (hM : |mu| ≤ M) (hy : 0 < y) :
    |occ m b mu y| ≤ 2 * Real.exp (b0 * M) * Real.exp (-(b0 * y)) := by
  have hE : y ≤ Real.sqrt (m * m + y * y) := Real.le_sqrt_of_sq_le (by nlinarith [mul_self_nonneg m])
  have h1 := fermi_le_of_le (x := Real.sqrt (m * m + y * y) - mu) h0 hb
  have h2 := fermi_le_of_le (x := Real.sqrt (m * m + y * y) + mu) h0 hb
  obtain ⟨a1, a2⟩ := abs_le.1 hM
  have p1 : 0 < (Real.exp ((Real.sqrt (m * m + y * y) - mu) * b) + 1)⁻¹ := by positivity
  have p2 : 0 < (Real.exp ((Real.sqrt (m * m + y * y) + mu) * b) + 1)⁻¹ := by positivity
  have e : Real.exp (b0 * M) * Real.exp (-(b0 * y)) = Real.exp (-(b0 * (y - M))) := by rw [← Real.exp_add]; ring_nf
  have g1 : Real.exp (-(b0 * (Real.sqrt (m * m + y * y) - mu))) ≤ Real.exp (-(b0 * (y - M))) := Real.exp_le_exp.2 (by nlinarith)
  have g2 : Real.exp (-(b0 * (Real.sqrt (m * m + y * y) + mu))) ≤ Real.exp (-(b0 * (y - M))) := Real.exp_le_exp.2 (by nlinarith)
  rw [mul_assoc, e, occ, abs_le]
  constructor <;> linarith [Real.exp_pos (-(b0 * (y - M)))]

theorem occ_meas (m b mu : ℝ) : Measurable (occ m b mu) := by
  unfold occ
  fun_prop

/-- Dominated convergence. -/
theorem density_limit {A : Type} {l : Filter A} [l.IsCountablyGenerated] {m b mu : A → ℝ} {b0 M : ℝ} (h0 : 0 < b0) (hb : ∀ᶠ x in l, b0 ≤ b x)
    (hM : ∀ᶠ x in l, |mu x| ≤ M) {D : ℝ → ℝ} {N : Set ℝ} (hN : N.Countable)
    (hD : ∀ y, 0 < y → y ∉ N → Tendsto (fun x => occ (m x) (b x) (mu x) y) l (𝓝 (D y))) :
    Tendsto (fun x => ∫ y in Ioi (0 : ℝ), y ^ 2 * occ (m x) (b x) (mu x) y) l (𝓝 (∫ y in Ioi (0 : ℝ), y ^ 2 * D y)) := by
  refine tendsto_integral_filter_of_dominated_convergence (fun y => 2 * Real.exp (b0 * M) * (1 + y) ^ 2 * Real.exp (-(4 * b0 / 4 * y)))
    (.of_forall fun x => (Measurable.aestronglyMeasurable (by have := occ_meas (m x) (b x) (mu x); fun_prop))) ?_
    (Dom.bound_integrable (by positivity) _ 2) ?_
  · filter_upwards [hb, hM] with x hx hx'
    refine (ae_restrict_iff' measurableSet_Ioi).2 (.of_forall fun y (hy : 0 < y) => ?_)
    have h := occ_bound (m := m x) h0 hx hx' hy
    rw [norm_mul, Real.norm_of_nonneg (by positivity), Real.norm_eq_abs, show 4 * b0 / 4 * y = b0 * y by ring]
    calc y ^ 2 * |occ (m x) (b x) (mu x) y| ≤ (1 + y) ^ 2 * (2 * Real.exp (b0 * M) * Real.exp (-(b0 * y))) := by
          gcongr
          linarith
      _ = _ := by ring
  · have : ∀ᵐ y ∂(volume.restrict (Ioi (0 : ℝ))), y ∉ N :=
      ae_restrict_of_ae (measure_eq_zero_iff_ae_notMem.1 (hN.measure_zero volume))
    filter_upwards [this, ae_restrict_mem measurableSet_Ioi] with y hy hy0
    exact (hD y hy0 hy).const_mul _

theorem occ_tendsto {A : Type} {l : Filter A} {m b mu : A → ℝ} {m0 b0 mu0 : ℝ} (hm : Tendsto m l (𝓝 m0)) (hb : Tendsto b l (𝓝 b0))
    (hmu : Tendsto mu l (𝓝 mu0)) (y : ℝ) : Tendsto (fun x => occ (m x) (b x) (mu x) y) l (𝓝 (occ m0 b0 mu0 y)) := by
  have hE := ((hm.mul hm).add_const (y * y)).sqrt
  have key : ∀ s : ℝ, (Real.exp s + 1) ≠ 0 := fun s => by positivity
  exact ((((hE.sub hmu).mul hb).rexp.add_const 1).inv₀ (key _)).sub ((((hE.add hmu).mul hb).rexp.add_const 1).inv₀ (key _))

/-- One occupation at low temperature. -/
theorem step_tendsto {A : Type} {l : Filter A} {e b : A → ℝ} {e0 : ℝ} (he : Tendsto e l (𝓝 e0)) (h0 : e0 ≠ 0) (hb : Tendsto b l atTop) :
    Tendsto (fun x => (Real.exp (e x * b x) + 1)⁻¹) l (𝓝 (if e0 < 0 then 1 else 0)) := by
  rcases lt_or_gt_of_ne h0 with h | h
  · rw [if_pos h]
    have := ((Real.tendsto_exp_atBot.comp (he.neg_mul_atTop h hb)).add_const 1).inv₀ (by norm_num)
    simpa using this
  · rw [if_neg (not_lt.2 h.le)]
    exact (tendsto_atTop_add_const_right _ _ (Real.tendsto_exp_atTop.comp (he.pos_mul_atTop h hb))).inv_tendsto_atTop

theorem integral_fermi_ball (R : ℝ) (hR : 0 ≤ R) : ∫ y in Ioi (0 : ℝ), y ^ 2 * (if y < R then 1 else 0) = R ^ 3 / 3 := by
  have h : ∀ y : ℝ, y ^ 2 * (if y < R then (1 : ℝ) else 0) = (Iio R).indicator (fun y => y ^ 2) y := fun y => by
    by_cases hy : y < R <;> simp [hy]
  simp only [h]
  rw [setIntegral_indicator measurableSet_Iio, show Ioi (0 : ℝ) ∩ Iio R = Ioo 0 R from rfl, ← integral_Ioc_eq_integral_Ioo,
    ← intervalIntegral.integral_of_le hR, integral_pow]
  ring

end Qcd
