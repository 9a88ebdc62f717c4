import Verif.Lemmas.ThermalLog
import Verif.Lemmas.Branch
import Verif.Spec.Thermal

/-! # Branch-cut facts about the logarithms of the thermal integrands -/

set_option linter.unusedSimpArgs false

namespace Qcd

theorem R0_neg_p (om p en d : ℂ) : R0 om (-p) en d = R0 om p en d := by simp [R0]
theorem PF_neg_p (om p en d : ℂ) : PF om (-p) en d = PF om p en d := by simp [PF]

/-- Imaginary part of the denominator for real momentum, energy and mass difference. -/
theorem R0_im (om : ℂ) (p : ℝ) {en d : ℂ} (he : en.im = 0) (hd : d.im = 0) :
    (R0 om p en d).im = 2 * om.re * (om.im + en.re) := by
  simp [R0, he, hd]; ring

/-- For `Im r ≠ 0` and real `a`, the quotient `(a+r)/(-a+r)` is not on the cut of the logarithm. -/
theorem quot_mem_slit {r : ℂ} (hr : r.im ≠ 0) (a : ℝ) :
    ((a : ℂ) + r) / (-(a : ℂ) + r) ∈ Complex.slitPlane := by
  by_cases ha : a = 0
  · subst ha
    have : r ≠ 0 := fun h => hr (by simp [h])
    simp [this]
  · right
    have h2 : (-(a : ℂ) + r) ≠ 0 := fun h => hr (by simpa using congrArg Complex.im h)
    have h3 : Complex.normSq (-(a : ℂ) + r) ≠ 0 := by simpa using h2
    rw [Complex.div_im]
    have : ((a : ℂ) + r).im * (-(a : ℂ) + r).re / Complex.normSq (-(a : ℂ) + r) -
        ((a : ℂ) + r).re * (-(a : ℂ) + r).im / Complex.normSq (-(a : ℂ) + r)
        = (-2 * a * r.im) / Complex.normSq (-(a : ℂ) + r) := by
      simp; ring
    rw [this]
    exact div_ne_zero (mul_ne_zero (mul_ne_zero (by norm_num) ha) hr) h3

theorem quot_num_ne {r : ℂ} (hr : r.im ≠ 0) (a : ℝ) : (a : ℂ) + r ≠ 0 :=
  fun h => hr (by simpa using congrArg Complex.im h)

theorem TL_arg_slit {om : ℂ} {q p : ℝ} {en d : ℂ} (h : (R0 om p en d).im ≠ 0) :
    ((p : ℂ) * q * 2 + R0 om p en d) / (-((p : ℂ) * q * 2) + R0 om p en d) ∈ Complex.slitPlane := by
  have := quot_mem_slit h (p * q * 2)
  push_cast at this; exact this

theorem TL_neg_p {om : ℂ} {q p : ℝ} {en d : ℂ} (h : (R0 om p en d).im ≠ 0) :
    TL q om (-(p : ℂ)) en d = -TL q om p en d := by
  unfold TL
  rw [R0_neg_p]
  have h1 := TL_arg_slit (q := q) h
  rw [← Complex.log_inv _ (Complex.mem_slitPlane_iff_arg.1 h1).1, inv_div]
  congr 2 <;> ring

theorem TL_conj {om q p : ℝ} {en d : ℂ} (he : en.im = 0) (hd : d.im = 0)
    (h : (R0 om p en d).im ≠ 0) :
    (starRingEnd ℂ) (TL q om p en d) = TL q (-(om : ℂ)) p en d := by
  have h1 := TL_arg_slit (q := q) h
  have ce : (starRingEnd ℂ) en = en := Complex.conj_eq_iff_im.2 he
  have cd : (starRingEnd ℂ) d = d := Complex.conj_eq_iff_im.2 hd
  have hn : ∀ n : ℕ, [n.AtLeastTwo] → (starRingEnd ℂ) (OfNat.ofNat n : ℂ) = OfNat.ofNat n :=
    fun n _ => map_ofNat _ n
  unfold TL
  rw [← Complex.log_conj _ (Complex.mem_slitPlane_iff_arg.1 h1).1]
  simp only [R0, map_div₀, map_add, map_mul, map_neg, Complex.conj_ofReal, ce, cd, hn, Complex.conj_I]
  congr 2 <;> ring

theorem R0_conj {om p : ℝ} {en d : ℂ} (he : en.im = 0) (hd : d.im = 0) :
    (starRingEnd ℂ) (R0 om p en d) = R0 (-(om : ℂ)) p en d := by
  have ce : (starRingEnd ℂ) en = en := Complex.conj_eq_iff_im.2 he
  have cd : (starRingEnd ℂ) d = d := Complex.conj_eq_iff_im.2 hd
  have hn : ∀ n : ℕ, [n.AtLeastTwo] → (starRingEnd ℂ) (OfNat.ofNat n : ℂ) = OfNat.ofNat n :=
    fun n _ => map_ofNat _ n
  simp only [R0, map_add, map_mul, map_neg, Complex.conj_ofReal, ce, cd, hn, Complex.conj_I]
  ring

theorem PF_conj {om p : ℝ} {en d : ℂ} (he : en.im = 0) (hd : d.im = 0) :
    (starRingEnd ℂ) (PF om p en d) = PF (-(om : ℂ)) p en d := by
  have ce : (starRingEnd ℂ) en = en := Complex.conj_eq_iff_im.2 he
  have cd : (starRingEnd ℂ) d = d := Complex.conj_eq_iff_im.2 hd
  have hn : ∀ n : ℕ, [n.AtLeastTwo] → (starRingEnd ℂ) (OfNat.ofNat n : ℂ) = OfNat.ofNat n :=
    fun n _ => map_ofNat _ n
  simp only [PF, map_add, map_mul, map_neg, map_inv₀, map_one, Complex.conj_ofReal, ce, cd, hn, Complex.conj_I]
  rw [inv_neg]; ring

theorem ofReal_energy (q m : ℝ) : ((energy q m : ℝ) : ℂ) = energy q (m : ℂ) := toC_energy q m

theorem energy_im (q m : ℝ) : (energy q (m : ℂ)).im = 0 := by rw [← ofReal_energy]; simp
theorem energy_re (q m : ℝ) : (energy q (m : ℂ)).re = energy q m := by rw [← ofReal_energy]; simp
theorem energy_conj (q m : ℝ) : (starRingEnd ℂ) (energy q (m : ℂ)) = energy q (m : ℂ) := by
  rw [← ofReal_energy, Complex.conj_ofReal]
theorem bose_conj (x : ℝ) (beta : ℝ) :
    (starRingEnd ℂ) (bose_distribution_zero_chempot (x : ℂ) beta) = bose_distribution_zero_chempot (x : ℂ) beta := by
  rw [← ofReal_bose, Complex.conj_ofReal]

theorem energy_pos {q m : ℝ} (hq : 0 < q) : 0 < energy q m := by
  unfold energy energy_squared
  exact Real.sqrt_pos.2 (add_pos_of_nonneg_of_pos (mul_self_nonneg m) (by simpa using mul_pos hq hq))

theorem InStrip.neg {om : ℂ} {en : ℝ} (h : InStrip om en) : InStrip (-om) en := by
  simpa [InStrip] using h

theorem InStrip.ofReal {om : ℝ} (h : om ≠ 0) {en : ℝ} (he : 0 < en) : InStrip (om : ℂ) en := by
  simpa [InStrip] using ⟨h, he⟩

theorem InStrip.R0 {om : ℂ} {e : ℝ} (h : InStrip om e) (p : ℝ) {en d : ℂ} (hr : en.re = e)
    (he : en.im = 0) (hd : d.im = 0) : (R0 om p en d).im ≠ 0 := by
  rw [R0_im _ _ he hd]
  have := abs_lt.1 h.2
  exact mul_ne_zero (mul_ne_zero two_ne_zero h.1) (by linarith)

theorem bose_energy_conj (q m : ℝ) (beta : ℝ) :
    (starRingEnd ℂ) (bose_distribution_zero_chempot (energy q (m : ℂ)) beta)
      = bose_distribution_zero_chempot (energy q (m : ℂ)) beta := by
  rw [← ofReal_energy, ← ofReal_bose, Complex.conj_ofReal]

/-- The zero-frequency logarithm at real arguments is real. -/
theorem ZL_ofReal (q p d : ℝ) : ZL q p d =
    ((Real.log (((p * p + d + q * 2 * p) / (p * p + d - q * 2 * p)) *
      ((p * p + d + q * 2 * p) / (p * p + d - q * 2 * p))) / 2 : ℝ) : ℂ) := by
  rw [Complex.ofReal_div, Complex.ofReal_log (mul_self_nonneg _)]
  unfold ZL; push_cast; rfl

theorem eq_ofReal_of_im {d : ℂ} (h : d.im = 0) : d = ((d.re : ℝ) : ℂ) := by
  apply Complex.ext <;> simp [h]

theorem ZL_conj (q p : ℝ) {d : ℂ} (hd : d.im = 0) : (starRingEnd ℂ) (ZL q p d) = ZL q p d := by
  rw [eq_ofReal_of_im hd, ZL_ofReal, Complex.conj_ofReal]

theorem ZL_neg_p (q p : ℝ) {d : ℂ} (hd : d.im = 0) : ZL q (-(p : ℂ)) d = -ZL q p d := by
  rw [eq_ofReal_of_im hd, ← Complex.ofReal_neg, ZL_ofReal, ZL_ofReal, ← Complex.ofReal_neg]
  congr 1
  rw [← neg_div, ← Real.log_inv, mul_inv, inv_div]
  congr 3 <;> ring

end Qcd
