import Verif.Model.Num
import Mathlib.Analysis.SpecialFunctions.Pow.Deriv
import Mathlib.Analysis.SpecialFunctions.Complex.LogDeriv
import Mathlib.Tactic.FieldSimp
import Mathlib.Tactic.Linarith

/-! Helper lemmas about the principal square root and the cut plane. -/

namespace Qcd
open Complex

theorem csqrt_eq_exp {z : ℂ} (hz : z ≠ 0) : csqrt z = exp (log z / 2) := by
  unfold csqrt
  rw [cpow_def_of_ne_zero hz]; congr 1; ring

theorem csqrt_zero : csqrt 0 = 0 := by
  unfold csqrt; rw [zero_cpow]; norm_num

theorem csqrt_sq (z : ℂ) : csqrt z ^ 2 = z := by
  by_cases hz : z = 0
  · subst hz; rw [csqrt_zero]; norm_num
  · rw [csqrt_eq_exp hz, sq, ← exp_add, add_halves, exp_log hz]

theorem csqrt_mul_self (z : ℂ) : csqrt z * csqrt z = z := by rw [← sq, csqrt_sq]

theorem csqrt_ne_zero {z : ℂ} (hz : z ≠ 0) : csqrt z ≠ 0 := by
  intro h; apply hz; rw [← csqrt_sq z, h]; norm_num

theorem csqrt_re_nonneg (z : ℂ) : 0 ≤ (csqrt z).re := by
  by_cases hz : z = 0
  · subst hz; rw [csqrt_zero]; simp
  rw [csqrt_eq_exp hz, exp_re]
  apply mul_nonneg (Real.exp_pos _).le
  apply Real.cos_nonneg_of_neg_pi_div_two_le_of_le
  · have := neg_pi_lt_arg z; simp [log_im]; linarith
  · have := arg_le_pi z; simp [log_im]; linarith

theorem csqrt_re_pos {z : ℂ} (hz : z ∈ slitPlane) : 0 < (csqrt z).re := by
  have h0 := slitPlane_ne_zero hz
  rw [csqrt_eq_exp h0, exp_re]
  apply mul_pos (Real.exp_pos _)
  apply Real.cos_pos_of_mem_Ioo
  have h1 := neg_pi_lt_arg z
  have h2 := arg_le_pi z
  have h3 := slitPlane_arg_ne_pi hz
  have h4 : arg z < Real.pi := lt_of_le_of_ne h2 h3
  constructor
  · simp [log_im]; linarith
  · simp [log_im]; linarith

/-- The principal root is the root with positive real part. -/
theorem csqrt_unique {z w : ℂ} (hw : 0 < w.re) (h : w ^ 2 = z) : csqrt z = w := by
  have h1 : csqrt z ^ 2 = w ^ 2 := by rw [csqrt_sq, h]
  rcases sq_eq_sq_iff_eq_or_eq_neg.1 h1 with h2 | h2
  · exact h2
  · have := csqrt_re_nonneg z
    rw [h2] at this
    simp at this
    linarith

theorem csqrt_conj {z : ℂ} (hz : z ∈ slitPlane) :
    csqrt ((starRingEnd ℂ) z) = (starRingEnd ℂ) (csqrt z) := by
  apply csqrt_unique
  · simpa using csqrt_re_pos hz
  · rw [← map_pow, csqrt_sq]

theorem differentiableAt_csqrt {z : ℂ} (hz : z ∈ slitPlane) : DifferentiableAt ℂ csqrt z :=
  DifferentiableAt.cpow_const differentiableAt_id hz

theorem hasDerivAt_csqrt {z : ℂ} (hz : z ∈ slitPlane) :
    HasDerivAt csqrt (1 / (2 * csqrt z)) z := by
  have h : HasDerivAt (fun x => csqrt x) (1 / 2 * z ^ ((1 : ℂ) / 2 - 1) * 1) z :=
    (hasDerivAt_id z).cpow_const (c := (1 : ℂ) / 2) hz
  have h0 := slitPlane_ne_zero hz
  have h1 : z ^ ((1 : ℂ) / 2 - 1) = csqrt z / z := by
    rw [cpow_sub _ _ h0, cpow_one]; rfl
  have h2 := csqrt_ne_zero h0
  have h3 := csqrt_sq z
  have h4 : 1 / 2 * z ^ ((1 : ℂ) / 2 - 1) * 1 = 1 / (2 * csqrt z) := by
    rw [h1]
    field_simp
    rw [h3]
  rwa [h4] at h

theorem log_conj_slit {z : ℂ} (hz : z ∈ slitPlane) :
    log ((starRingEnd ℂ) z) = (starRingEnd ℂ) (log z) :=
  log_conj z (slitPlane_arg_ne_pi hz)

/-! ### The arguments that occur in the vacuum functions -/

theorem slit_inv {s : ℂ} (hs : s ∈ slitPlane) : s⁻¹ ∈ slitPlane := by
  have h0 := slitPlane_ne_zero hs
  have hn : 0 < normSq s := normSq_pos.2 h0
  rw [mem_slitPlane_iff] at hs ⊢
  rw [inv_re, inv_im]
  rcases hs with h | h
  · left; positivity
  · right
    exact div_ne_zero (neg_ne_zero.2 h) hn.ne'

theorem slit_mul_pos {s : ℂ} (hs : s ∈ slitPlane) {r : ℝ} (hr : 0 < r) :
    s * (r : ℂ) ∈ slitPlane := by
  rw [mem_slitPlane_iff] at hs ⊢
  rw [re_mul_ofReal, im_mul_ofReal]
  rcases hs with h | h
  · left; positivity
  · right; exact mul_ne_zero h hr.ne'

theorem slit_div_pos {s : ℂ} (hs : s ∈ slitPlane) {r : ℝ} (hr : 0 < r) :
    s / (r : ℂ) ∈ slitPlane := by
  rw [div_eq_mul_inv, ← ofReal_inv]; exact slit_mul_pos hs (inv_pos.2 hr)

theorem slit_add_pos {s : ℂ} (hs : s ∈ slitPlane) {r : ℝ} (hr : 0 < r) :
    s + (r : ℂ) ∈ slitPlane := by
  rw [mem_slitPlane_iff] at hs ⊢
  simp only [add_re, ofReal_re, add_im, ofReal_im, add_zero]
  rcases hs with h | h
  · left; positivity
  · right; exact h

theorem slit_add_one {s : ℂ} (hs : s ∈ slitPlane) : s + 1 ∈ slitPlane := by
  simpa using slit_add_pos hs one_pos

theorem slit_a2 {s : ℂ} (hs : s ∈ slitPlane) : s⁻¹ * 4 + 1 ∈ slitPlane := by
  have := slit_add_one (slit_mul_pos (slit_inv hs) (r := 4) (by norm_num))
  simpa using this

theorem conj_slit {s : ℂ} (hs : s ∈ slitPlane) : (starRingEnd ℂ) s ∈ slitPlane := by
  rw [mem_slitPlane_iff] at hs ⊢
  simpa using hs

/-- If `a²= 1 + 4/s` with `s` off the cut then `a` is not in `[-1, 1]`. -/
theorem a_not_real {s a : ℂ} (hs : s ∈ slitPlane) (ha : a ^ 2 = s⁻¹ * 4 + 1) (him : a.im = 0) :
    1 < a.re ^ 2 := by
  have hsi := slit_inv hs
  have hre : a = (a.re : ℂ) := by apply Complex.ext <;> simp [him]
  by_contra hle
  rw [not_lt] at hle
  have h1 : s⁻¹ = (((a.re ^ 2 - 1) / 4 : ℝ) : ℂ) := by
    have : s⁻¹ = (a ^ 2 - 1) / 4 := by rw [ha]; ring
    rw [this]
    conv_lhs => rw [hre]
    push_cast; ring
  rw [h1, ofReal_mem_slitPlane] at hsi
  linarith

/-- `(a - 1)/2` stays off the cut. -/
theorem slit_a_sub_one {s : ℂ} (hs : s ∈ slitPlane) :
    (csqrt (s⁻¹ * 4 + 1) - 1) / 2 ∈ slitPlane := by
  set a := csqrt (s⁻¹ * 4 + 1) with hadef
  have ha : a ^ 2 = s⁻¹ * 4 + 1 := csqrt_sq _
  have hre : 0 < a.re := csqrt_re_pos (slit_a2 hs)
  have key : a - 1 ∈ slitPlane := by
    rw [mem_slitPlane_iff]
    by_cases him : a.im = 0
    · left
      have := a_not_real hs ha him
      simp only [sub_re, one_re]
      nlinarith
    · right; simpa using him
  simpa using slit_div_pos key (r := 2) (by norm_num)

/-- `(a - 1)/(a + 1)` stays off the cut. -/
theorem slit_a_ratio {s : ℂ} (hs : s ∈ slitPlane) :
    (csqrt (s⁻¹ * 4 + 1) - 1) / (csqrt (s⁻¹ * 4 + 1) + 1) ∈ slitPlane := by
  set a := csqrt (s⁻¹ * 4 + 1) with hadef
  have ha : a ^ 2 = s⁻¹ * 4 + 1 := csqrt_sq _
  have hre : 0 < a.re := csqrt_re_pos (slit_a2 hs)
  have hne : a + 1 ≠ 0 := by
    intro h
    have := congrArg Complex.re h
    simp at this
    linarith
  have hn : 0 < normSq (a + 1) := normSq_pos.2 hne
  rw [mem_slitPlane_iff]
  by_cases him : a.im = 0
  · left
    have := a_not_real hs ha him
    have h1 : (a - 1) / (a + 1) = (((a.re - 1) / (a.re + 1) : ℝ) : ℂ) := by
      have hre' : a = (a.re : ℂ) := by apply Complex.ext <;> simp [him]
      conv_lhs => rw [hre']
      push_cast; ring
    rw [h1, ofReal_re]
    apply div_pos <;> nlinarith
  · right
    rw [div_im]
    simp only [sub_im, one_im, sub_zero, add_re, one_re, sub_re, add_im, add_zero]
    intro h
    apply him
    have h2 : a.im * (a.re + 1) - (a.re - 1) * a.im = 0 := by
      field_simp at h
      linarith
    have h3 : 2 * a.im = 0 := by linarith
    linarith

theorem a_add_one_ne_zero {s : ℂ} (hs : s ∈ slitPlane) : csqrt (s⁻¹ * 4 + 1) + 1 ≠ 0 := by
  intro h
  have h1 := csqrt_re_pos (slit_a2 hs)
  have := congrArg Complex.re h
  simp at this
  linarith

end Qcd
