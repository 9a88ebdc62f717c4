import Mathlib.NumberTheory.LSeries.MellinEqDirichlet
import Mathlib.NumberTheory.ZetaValues
import Mathlib.MeasureTheory.Integral.IntegralEqImproper
import Verif.Lemmas.DominationFull

/-! # Moments of the Bose and Fermi distributions -/

namespace Qcd
open MeasureTheory Filter Topology Set

theorem integrable_bose_moment : IntegrableOn (fun x : ℝ => x * (Real.exp x - 1)⁻¹) (Ioi 0) := by
  have h := exp_neg_integrableOn_Ioi 0 (by norm_num : (0 : ℝ) < 1 / 2)
  refine h.mono' (by fun_prop) ((ae_restrict_iff' measurableSet_Ioi).2 (.of_forall fun x (hx : 0 < x) => ?_))
  obtain ⟨h1, h2⟩ := bose_bound hx one_pos
  rw [boseZ_real, mul_one] at h1 h2
  rw [Real.norm_of_nonneg (mul_nonneg hx.le h1)]
  calc x * (Real.exp x - 1)⁻¹ ≤ x * (Real.exp (-(x / 2)) / x) := by gcongr
    _ = _ := by rw [mul_div_cancel₀ _ hx.ne']; congr 1; ring

theorem integral_bose_moment : ∫ x in Ioi (0 : ℝ), x * (Real.exp x - 1)⁻¹ = Real.pi ^ 2 / 6 := by
  have hF : ∀ t ∈ Ioi (0 : ℝ), HasSum (fun n : ℕ => (1 : ℂ) * ((Real.exp (-((n : ℝ) + 1) * t) : ℝ) : ℂ)) (((Real.exp t - 1)⁻¹ : ℝ) : ℂ) := by
    intro t (ht : 0 < t)
    have h1 : Real.exp (-t) < 1 := by
      rw [← Real.exp_zero]; exact Real.exp_lt_exp.2 (by linarith)
    have h2 := (hasSum_geometric_of_lt_one (Real.exp_pos (-t)).le h1).mul_left (Real.exp (-t))
    have h3 : Real.exp (-t) * (1 - Real.exp (-t))⁻¹ = (Real.exp t - 1)⁻¹ := by
      rw [Real.exp_neg]
      have := Real.exp_pos t
      rw [← mul_inv_rev, sub_mul, inv_mul_cancel₀ this.ne', one_mul]
    rw [h3] at h2
    simp only [one_mul]
    refine Complex.hasSum_ofReal.2 (h2.congr_fun fun n => ?_)
    rw [← Real.exp_nat_mul, ← Real.exp_add]
    congr 1; ring
  have hs : Summable fun n : ℕ => ‖(1 : ℂ)‖ / ((n : ℝ) + 1) ^ (2 : ℂ).re := by
    have := (summable_nat_add_iff 1).2 (hasSum_zeta_two.summable)
    refine this.congr fun n => ?_
    push_cast
    simp
  have h := hasSum_mellin (a := fun _ : ℕ => (1 : ℂ)) (p := fun n => (n : ℝ) + 1) (s := 2) (fun n => Or.inr (by positivity)) (by norm_num) hF hs
  have hz : HasSum (fun n : ℕ => Complex.Gamma 2 * 1 / (((n : ℝ) + 1 : ℝ) : ℂ) ^ (2 : ℂ)) (((Real.pi ^ 2 / 6 : ℝ)) : ℂ) := by
    have h1 := (hasSum_nat_add_iff' 1).2 hasSum_zeta_two
    simp only [Finset.range_one, Finset.sum_singleton, Nat.cast_zero, ne_eq, OfNat.ofNat_ne_zero, not_false_eq_true, zero_pow, div_zero, sub_zero] at h1
    refine (Complex.hasSum_ofReal.2 h1).congr_fun fun n => ?_
    have : Complex.Gamma 2 = 1 := by
      have := Complex.Gamma_nat_eq_factorial 1
      rw [Nat.cast_one, one_add_one_eq_two] at this; simpa using this
    rw [this]
    push_cast
    simp
  have h5 := h.unique hz
  rw [mellin] at h5
  rw [← Complex.ofReal_inj, ← h5, ← integral_complex_ofReal]
  refine setIntegral_congr_fun measurableSet_Ioi fun x _ => ?_
  norm_num

theorem fermi_of_bose {x : ℝ} (hx : 0 < x) : (Real.exp x + 1)⁻¹ = (Real.exp x - 1)⁻¹ - 2 * (Real.exp (2 * x) - 1)⁻¹ := by
  have h1 : 1 < Real.exp x := Real.one_lt_exp_iff.2 hx
  have h2 : Real.exp (2 * x) = Real.exp x * Real.exp x := by rw [← Real.exp_add]; ring_nf
  rw [h2]
  generalize Real.exp x = y at *
  have h3 : y - 1 ≠ 0 := by linarith
  have h4 : y + 1 ≠ 0 := by linarith
  have h5 : y * y - 1 = (y - 1) * (y + 1) := by ring
  rw [h5]
  field_simp
  ring

theorem integral_fermi_moment : ∫ x in Ioi (0 : ℝ), x * (Real.exp x + 1)⁻¹ = Real.pi ^ 2 / 12 := by
  have h2 := integral_comp_mul_left_Ioi (fun x => x * (Real.exp x - 1)⁻¹) 0 (by norm_num : (0 : ℝ) < 2)
  have i2 := (integrableOn_Ioi_comp_mul_left_iff (fun x => x * (Real.exp x - 1)⁻¹) 0 (by norm_num : (0 : ℝ) < 2)).2
    (by simpa using integrable_bose_moment)
  rw [mul_zero, integral_bose_moment] at h2
  have e : EqOn (fun x : ℝ => x * (Real.exp x + 1)⁻¹) (fun x => x * (Real.exp x - 1)⁻¹ - 2 * x * (Real.exp (2 * x) - 1)⁻¹) (Ioi 0) := fun x hx => by
    simp only
    rw [fermi_of_bose hx]; ring
  rw [setIntegral_congr_fun measurableSet_Ioi e, integral_sub integrable_bose_moment i2, h2, integral_bose_moment, smul_eq_mul]
  ring

theorem integrable_lin_fermi (a c : ℝ) : IntegrableOn (fun x : ℝ => (x + c) * (Real.exp x + 1)⁻¹) (Ioi a) := by
  have hc : Continuous fun x : ℝ => (x + c) * (Real.exp x + 1)⁻¹ := by
    refine (by fun_prop : Continuous fun x : ℝ => x + c).mul (Continuous.inv₀ (by fun_prop) fun x => ?_)
    positivity
  have h0 : IntegrableOn (fun x : ℝ => (x + c) * (Real.exp x + 1)⁻¹) (Ioi 0) := by
    refine (Dom.bound_integrable (b0 := 4) (by norm_num) (1 + |c|) 1).mono' hc.aestronglyMeasurable
      ((ae_restrict_iff' measurableSet_Ioi).2 (.of_forall fun x (hx : 0 < x) => ?_))
    have h1 := fermi_le_of_le (x := x) (b := 1) one_pos le_rfl
    rw [mul_one, one_mul] at h1
    rw [norm_mul, Real.norm_of_nonneg (by positivity : (0 : ℝ) ≤ (Real.exp x + 1)⁻¹), show (4 : ℝ) / 4 * x = x by ring]
    gcongr
    rw [Real.norm_eq_abs, pow_one]
    calc |x + c| ≤ |x| + |c| := abs_add_le _ _
      _ ≤ (1 + |c|) * (1 + x) := by rw [abs_of_pos hx]; nlinarith [abs_nonneg c]
  rcases le_total a 0 with h | h
  · rw [← Ioc_union_Ioi_eq_Ioi h]
    exact (hc.integrableOn_Icc.mono_set Ioc_subset_Icc_self).union h0
  · exact h0.mono_set (Ioi_subset_Ioi h)

theorem integral_shift_Ioi (g : ℝ → ℝ) (c : ℝ) : ∫ x in Ioi (0 : ℝ), g (x + c) = ∫ x in Ioi c, g x := by
  rw [← integral_indicator measurableSet_Ioi, ← integral_indicator measurableSet_Ioi,
    ← integral_add_right_eq_self (indicator (Ioi c) fun x => g x) c]
  congr 1
  ext x
  simp [indicator, mem_Ioi]

theorem integrable_shift_Ioi {g : ℝ → ℝ} (c : ℝ) (h : IntegrableOn g (Ioi c)) : IntegrableOn (fun x => g (x + c)) (Ioi 0) := by
  rw [← integrable_indicator_iff measurableSet_Ioi] at h ⊢
  refine (h.comp_add_right c).congr (.of_forall fun x => ?_)
  simp [indicator, mem_Ioi]

theorem fermi_neg (x : ℝ) : (Real.exp (-x) + 1)⁻¹ = 1 - (Real.exp x + 1)⁻¹ := by
  rw [Real.exp_neg]
  have := Real.exp_pos x
  field_simp
  ring

/-- `∫ y (f(y-ν) + f(y+ν)) dy = π²/6 + ν²/2`. -/
theorem integral_fermi_double_moment (v : ℝ) :
    ∫ y in Ioi (0 : ℝ), y * ((Real.exp (y - v) + 1)⁻¹ + (Real.exp (y + v) + 1)⁻¹) = Real.pi ^ 2 / 6 + v ^ 2 / 2 := by
  have e1 := integral_shift_Ioi (fun x => (x + v) * (Real.exp x + 1)⁻¹) (-v)
  have e2 := integral_shift_Ioi (fun x => (x + -v) * (Real.exp x + 1)⁻¹) v
  have i1 := integrable_shift_Ioi (-v) (integrable_lin_fermi (-v) v)
  have i2 := integrable_shift_Ioi v (integrable_lin_fermi v (-v))
  simp only [neg_add_cancel_right, add_neg_cancel_right] at e1 e2 i1 i2
  simp only [mul_add, sub_eq_add_neg]
  rw [integral_add i1 i2, e1, e2]
  have s1 := intervalIntegral.integral_Ioi_sub_Ioi' (integrable_lin_fermi (-v) v) (integrable_lin_fermi 0 v)
  have s2 := intervalIntegral.integral_Ioi_sub_Ioi' (integrable_lin_fermi 0 (-v)) (integrable_lin_fermi v (-v))
  have s3 : ∫ x in -v..0, (x + v) * (Real.exp x + 1)⁻¹ = ∫ x in (0 : ℝ)..v, (-x + v) * (1 - (Real.exp x + 1)⁻¹) := by
    have := intervalIntegral.integral_comp_neg (a := 0) (b := v) (fun x => (x + v) * (Real.exp x + 1)⁻¹)
    rw [neg_zero] at this
    rw [← this]
    refine intervalIntegral.integral_congr fun x _ => ?_
    simp only [fermi_neg]
  have hc : Continuous fun x : ℝ => (Real.exp x + 1)⁻¹ := Continuous.inv₀ (by fun_prop) fun x => by positivity
  have s4 : (∫ x in (0 : ℝ)..v, (-x + v) * (1 - (Real.exp x + 1)⁻¹)) - ∫ x in (0 : ℝ)..v, (x + -v) * (Real.exp x + 1)⁻¹ = v ^ 2 / 2 := by
    rw [← intervalIntegral.integral_sub (Continuous.intervalIntegrable (by fun_prop) _ _) (Continuous.intervalIntegrable (by fun_prop) _ _)]
    have : ∀ x : ℝ, (-x + v) * (1 - (Real.exp x + 1)⁻¹) - (x + -v) * (Real.exp x + 1)⁻¹ = v - x := fun x => by ring
    simp only [this]
    rw [intervalIntegral.integral_sub (by simp) (by simp)]
    simp
    ring
  have s5 : (∫ x in Ioi (0 : ℝ), (x + v) * (Real.exp x + 1)⁻¹) + ∫ x in Ioi (0 : ℝ), (x + -v) * (Real.exp x + 1)⁻¹ = Real.pi ^ 2 / 6 := by
    rw [← integral_add (integrable_lin_fermi 0 v) (integrable_lin_fermi 0 (-v))]
    have : ∀ x : ℝ, (x + v) * (Real.exp x + 1)⁻¹ + (x + -v) * (Real.exp x + 1)⁻¹ = 2 * (x * (Real.exp x + 1)⁻¹) := fun x => by ring
    simp only [this]
    rw [integral_const_mul, integral_fermi_moment]
    ring
  linarith

end Qcd
