import Verif.Model.Vacuum
import Mathlib.Analysis.SpecialFunctions.Log.Deriv
import Mathlib.Analysis.Calculus.Deriv.MeanValue
import Mathlib.Tactic.FieldSimp
import Mathlib.Tactic.Positivity

/-! # Bounds of the vacuum functions on the whole Euclidean axis -/

namespace Qcd
open Real Set

/-- A function that vanishes at `a` and has a non-negative derivative beyond is non-negative. -/
theorem nonneg_of_deriv {f f' : ℝ → ℝ} {a : ℝ} (h0 : 0 ≤ f a) (hd : ∀ x, a ≤ x → HasDerivAt f (f' x) x) (hn : ∀ x, a < x → 0 ≤ f' x)
    {x : ℝ} (hx : a ≤ x) : 0 ≤ f x := by
  have : MonotoneOn f (Ici a) := by
    refine monotoneOn_of_deriv_nonneg (convex_Ici a) (fun y hy => (hd y hy).continuousAt.continuousWithinAt) ?_ ?_
    · intro y hy; rw [interior_Ici] at hy; exact (hd y (le_of_lt hy)).differentiableAt.differentiableWithinAt
    · intro y hy; rw [interior_Ici] at hy; rw [(hd y (le_of_lt hy)).deriv]; exact hn y hy
  exact h0.trans (this self_mem_Ici hx hx)

theorem log_one_add_upper {s : ℝ} (hs : 0 ≤ s) : log (1 + s) ≤ s - s ^ 2 / 2 + s ^ 3 / 3 := by
  have := nonneg_of_deriv (f := fun s => s - s ^ 2 / 2 + s ^ 3 / 3 - log (1 + s)) (f' := fun s => s ^ 3 / (1 + s)) (a := 0) (by simp)
    (fun x hx => ?_) (fun x hx => by positivity) hs
  · linarith
  · have h1 : (1 : ℝ) + x ≠ 0 := by positivity
    have := ((((hasDerivAt_id x).sub (((hasDerivAt_id x).pow 2).div_const 2)).add (((hasDerivAt_id x).pow 3).div_const 3)).sub
      (((hasDerivAt_id x).const_add 1).log h1))
    refine this.congr_deriv ?_
    simp only [id]
    field_simp
    ring

theorem log_one_add_lower {s : ℝ} (hs : 0 ≤ s) : s - s ^ 2 / 2 ≤ log (1 + s) := by
  refine le_trans ?_ (Real.le_log_one_add_of_nonneg hs)
  rw [le_div_iff₀ (by linarith)]
  nlinarith [mul_nonneg hs (mul_nonneg hs hs)]

/-- Every positive number is `(1 - x)² / x`. -/
theorem exists_x {s : ℝ} (hs : 0 < s) : ∃ x, 0 < x ∧ x < 1 ∧ s = (1 - x) ^ 2 / x := by
  have h4 : 0 < s * (s + 4) := by positivity
  have hr := Real.sq_sqrt h4.le
  have hr0 := Real.sqrt_pos.2 h4
  set r := √(s * (s + 4))
  have h1 : r < s + 2 := by nlinarith
  have h2 : s < r := by nlinarith
  refine ⟨(s + 2 - r) / 2, by linarith, by linarith, ?_⟩
  rw [eq_div_iff (by linarith)]
  nlinarith

/-- The gluon function in terms of `x`. -/
theorem f_of_x {x : ℝ} (h0 : 0 < x) (h1 : x < 1) {s : ℝ} (hs : s = (1 - x) ^ 2 / x) :
    72 * gluon.f s = 45 / s + (1 + x) / (1 - x) * (-3 * s ^ 2 + 34 * s + 28 + 24 / s) * (-log x)
      + (-4 / s ^ 3 + 14 / s ^ 2 - 52 - 28 * s + 6 * s ^ 2) * log (1 + s) + (2 - 3 * s ^ 2) * log s + 4 / s ^ 2 - 64 / s + 34 := by
  have hx : (0 : ℝ) < 1 - x := by linarith
  have hsp : 0 < s := by rw [hs]; positivity
  have ha : √(s⁻¹ * 4 + 1) = (1 + x) / (1 - x) := by
    rw [show s⁻¹ * 4 + 1 = ((1 + x) / (1 - x)) ^ 2 by rw [hs]; field_simp; ring, Real.sqrt_sq (by positivity)]
  have hl : log (((1 + x) / (1 - x) - 1) / 2) * 2 + log s = log x := by
    rw [show ((1 + x) / (1 - x) - 1) / 2 = x / (1 - x) by field_simp; ring, hs, log_div h0.ne' hx.ne', log_div (by positivity) h0.ne', log_pow]
    push_cast
    ring
  simp only [gluon.f, gluon.f_sep, gluon.l_a, gluon.l_b, gluon.l_c, gluon.r_a, gluon.r_b, gluon.r_c, ofR_real, sqrt_real, ln_real]
  rw [ha, hl, add_comm s 1]
  field_simp
  ring

theorem neg_log_lower {x : ℝ} (h0 : 0 < x) (h1 : x < 1) {s : ℝ} (hs : s = (1 - x) ^ 2 / x) : (1 - x ^ 2) / x * (1 / 2 - s / 12) ≤ -log x := by
  have key : ∀ t : ℝ, 1 ≤ t → 0 ≤ log t - (2 / 3 * (t - 1 / t) - (t ^ 2 - 1 / t ^ 2) / 12) := by
    intro t ht
    refine nonneg_of_deriv (f := fun t => log t - (2 / 3 * (t - 1 / t) - (t ^ 2 - 1 / t ^ 2) / 12)) (f' := fun t => (t - 1) ^ 4 / (6 * t ^ 3)) (a := 1) (by simp) ?_ ?_ ht
    · intro y hy
      have hy0 : y ≠ 0 := by positivity
      have d1 : HasDerivAt (fun t : ℝ => 1 / t) (-(y ^ 2)⁻¹) y := by simpa using hasDerivAt_inv hy0
      have d2 : HasDerivAt (fun t : ℝ => 1 / t ^ 2) (-(2 * y) / (y ^ 2) ^ 2) y := by
        have := (hasDerivAt_pow 2 y).fun_inv (pow_ne_zero 2 hy0)
        simpa using this
      have := (Real.hasDerivAt_log hy0).sub ((((hasDerivAt_id y).sub d1).const_mul (2 / 3)).sub (((hasDerivAt_pow 2 y).sub d2).div_const 12))
      refine this.congr_deriv ?_
      field_simp
      ring
    · intro y hy
      have : 0 < y := by linarith
      positivity
  have := key (1 / x) ((one_le_div h0).2 h1.le)
  rw [one_div, log_inv] at this
  refine le_trans (le_of_eq ?_) (sub_nonneg.1 this)
  rw [hs]
  field_simp
  ring

theorem neg_log_one_sub {y : ℝ} (h0 : 0 ≤ y) (h1 : y < 1) :
    y + y ^ 2 / 2 + y ^ 3 / 3 ≤ -log (1 - y) ∧ -log (1 - y) ≤ y + y ^ 2 / 2 + y ^ 3 / 3 + y ^ 4 / (1 - y) := by
  have ha : |y| = y := abs_of_nonneg h0
  constructor
  · have := sum_le_hasSum (Finset.range 3) (fun n _ => by positivity) (Real.hasSum_pow_div_log_of_abs_lt_one (by rwa [ha]))
    simp only [Finset.sum_range_succ, Finset.sum_range_zero] at this
    norm_num at this
    linarith
  · have := Real.abs_log_sub_add_sum_range_le (x := y) (by rwa [ha]) 3
    rw [ha] at this
    simp only [Finset.sum_range_succ, Finset.sum_range_zero] at this
    have := (abs_le.1 this).1
    norm_num at this
    linarith

/-- Small `x`: large momenta. -/
theorem f_lower_large {x : ℝ} (h0 : 0 < x) (h1 : x ≤ 2 / 5) {s : ℝ} (hs : s = (1 - x) ^ 2 / x) :
    63.072 + 52 * log (1 + s) < 72 * gluon.f s := by
  have hx1 : x < 1 := by linarith
  have hx : (0 : ℝ) < 1 - x := by linarith
  have hb : (0 : ℝ) ≤ 2 / 5 - x := by linarith
  have hsp : 0 < s := by rw [hs]; positivity
  have hq : 0 < 1 - x + x ^ 2 := by nlinarith
  have hs9 : 9 / 10 ≤ s := by rw [hs, le_div_iff₀ h0]; nlinarith
  have hL : 0 ≤ log (1 + s) := log_nonneg (by linarith)
  have e1 : -log x = log (1 + s) + -log (1 - (x - x ^ 2)) := by
    rw [show 1 + s = (1 - x + x ^ 2) / x by rw [hs]; field_simp; ring, log_div hq.ne' h0.ne', show 1 - (x - x ^ 2) = 1 - x + x ^ 2 by ring]
    ring
  have hy0 : 0 ≤ x - x ^ 2 := by nlinarith
  have hy1 : x - x ^ 2 < 1 := by nlinarith
  obtain ⟨w1, w2⟩ := neg_log_one_sub hy0 hy1
  set w := -log (1 - (x - x ^ 2)) with hw
  have e2 : log s = log (1 + s) - log (1 + 1 / s) := by
    rw [← log_div (by positivity) (by positivity)]; congr 1; field_simp; ring
  have v1 := log_one_add_lower (s := 1 / s) (by positivity)
  have hK : 0 ≤ (1 + x) / (1 - x) * (-3 * s ^ 2 + 34 * s + 28 + 24 / s) + (-4 / s ^ 3 + 14 / s ^ 2 - 52 - 28 * s + 6 * s ^ 2) + (2 - 3 * s ^ 2) - 52 := by
    have : (1 + x) / (1 - x) * (-3 * s ^ 2 + 34 * s + 28 + 24 / s) + (-4 / s ^ 3 + 14 / s ^ 2 - 52 - 28 * s + 6 * s ^ 2) + (2 - 3 * s ^ 2) - 52
        = ((671875/16)*x^2*(2/5-x)^6 + (365625/2)*x^3*(2/5-x)^5 + (5291875/16)*x^4*(2/5-x)^4 + (636125/2)*x^5*(2/5-x)^3 + (2739025/16)*x^6*(2/5-x)^2 + 48760*x^7*(2/5-x)^1 + (91481/16)*x^8*(2/5-x)^0) / (1 - x) ^ 6 := by
      rw [hs]; field_simp; ring
    rw [this]; positivity
  have hA : 0 < (1 + x) / (1 - x) * (-3 * s ^ 2 + 34 * s + 28 + 24 / s) * ((x - x ^ 2) + (x - x ^ 2) ^ 2 / 2 + (x - x ^ 2) ^ 3 / 3)
      - 3 * s ^ 2 * ((1 + x) / (1 - x)) * ((x - x ^ 2) ^ 4 / (1 - (x - x ^ 2))) + (3 * s ^ 2 - 2) * (1 / s - (1 / s) ^ 2 / 2) - 19 / s + 4 / s ^ 2 + 34 - 63.072 := by
    have hq' : 1 - (x - x ^ 2) = 1 - x + x ^ 2 := by ring
    have hq1 : 1 - x + x ^ 2 ≠ 0 := hq.ne'
    have : (1 + x) / (1 - x) * (-3 * s ^ 2 + 34 * s + 28 + 24 / s) * ((x - x ^ 2) + (x - x ^ 2) ^ 2 / 2 + (x - x ^ 2) ^ 3 / 3)
      - 3 * s ^ 2 * ((1 + x) / (1 - x)) * ((x - x ^ 2) ^ 4 / (1 - (x - x ^ 2))) + (3 * s ^ 2 - 2) * (1 / s - (1 / s) ^ 2 / 2) - 19 / s + 4 / s ^ 2 + 34 - 63.072
        = ((3759765625/2048)*x^0*(2/5-x)^14 + (21337890625/1024)*x^1*(2/5-x)^13 + (2632384765625/24576)*x^2*(2/5-x)^12 + (4063891015625/12288)*x^3*(2/5-x)^11 + (2107833828125/3072)*x^4*(2/5-x)^10 + (4158659140625/4096)*x^5*(2/5-x)^9 + (27380909253125/24576)*x^6*(2/5-x)^8 + (5760575928125/6144)*x^7*(2/5-x)^7 + (3859710990625/6144)*x^8*(2/5-x)^6 + (714634671875/2048)*x^9*(2/5-x)^5 + (1343776720625/8192)*x^10*(2/5-x)^4 + (258765767375/4096)*x^11*(2/5-x)^3 + (18579359575/1024)*x^12*(2/5-x)^2 + (13637218645/4096)*x^13*(2/5-x)^1 + (2341134949/8192)*x^14*(2/5-x)^0) / ((1 - x) ^ 4 * (1 - (x - x ^ 2))) := by
      rw [hs, hq']; field_simp; ring
    rw [this]
    have hq2 : 0 < 1 - (x - x ^ 2) := by linarith
    refine div_pos ?_ (by positivity)
    have : 0 < x ^ 14 := by positivity
    have h : 0 ≤ 2 / 5 - x := hb
    positivity
  have hP : -(3 * s ^ 2 * ((1 + x) / (1 - x))) ≤ (1 + x) / (1 - x) * (-3 * s ^ 2 + 34 * s + 28 + 24 / s) := by
    have : 0 ≤ (1 + x) / (1 - x) * (34 * s + 28 + 24 / s) := by positivity
    linarith
  have hv : 0 ≤ 3 * s ^ 2 - 2 := by nlinarith
  have hc : 0 ≤ 3 * s ^ 2 * ((1 + x) / (1 - x)) := by positivity
  rw [f_of_x h0 hx1 hs, e1, e2]
  generalize (1 + x) / (1 - x) * (-3 * s ^ 2 + 34 * s + 28 + 24 / s) = P at *
  generalize 3 * s ^ 2 * ((1 + x) / (1 - x)) = c at *
  generalize (x - x ^ 2) + (x - x ^ 2) ^ 2 / 2 + (x - x ^ 2) ^ 3 / 3 = wl at *
  generalize (x - x ^ 2) ^ 4 / (1 - (x - x ^ 2)) = dl at *
  generalize log (1 + 1 / s) = v at *
  generalize log (1 + s) = L at *
  have p1 : P * wl - c * dl ≤ P * w := by nlinarith [mul_nonneg (by linarith : 0 ≤ P + c) (sub_nonneg.2 w1), mul_nonneg hc (by linarith : 0 ≤ wl + dl - w)]
  have p2 := mul_le_mul_of_nonneg_left v1 hv
  have p3 := mul_nonneg hK hL
  have : 45 / s - 64 / s = -19 / s := by ring
  have e19 : 19 / s = -(-19 / s) := by ring
  nlinarith

/-- Large `x`: small momenta. -/
theorem f_lower_small {x : ℝ} (h0 : 0 < x) (h1 : x < 1) {s : ℝ} (hs : s = (1 - x) ^ 2 / x) (hs1 : s ≤ 1) :
    63.072 + 52 * log (1 + s) < 72 * gluon.f s := by
  have hx : (0 : ℝ) < 1 - x := by linarith
  have hsp : 0 < s := by rw [hs]; positivity
  have hb : 0 ≤ 1 - s := by linarith
  have hu := neg_log_lower h0 h1 hs
  have hL := log_one_add_upper hsp.le
  have hl : 1 - 1 / s ≤ log s := by simpa using Real.one_sub_inv_le_log_of_pos hsp
  have hl0 : log s ≤ 0 := log_nonpos hsp.le hs1
  have hP : 0 ≤ (1 + x) / (1 - x) * (-3 * s ^ 2 + 34 * s + 28 + 24 / s) := by
    have : 0 ≤ -3 * s ^ 2 + 34 * s + 28 + 24 / s := by
      have : 0 < 24 / s := by positivity
      nlinarith
    positivity
  have eP : (1 + x) / (1 - x) * (-3 * s ^ 2 + 34 * s + 28 + 24 / s) * ((1 - x ^ 2) / x * (1 / 2 - s / 12))
      = (s + 4) * (-3 * s ^ 2 + 34 * s + 28 + 24 / s) * (1 / 2 - s / 12) := by
    rw [hs]; field_simp; ring
  have hV : -4 / s ^ 3 + 14 / s ^ 2 - 52 - 28 * s + 6 * s ^ 2 - 52 ≤ 0 := by
    have : -4 / s ^ 3 + 14 / s ^ 2 - 52 - 28 * s + 6 * s ^ 2 - 52 = -(4 - 14 * s + 104 * s ^ 3 + 28 * s ^ 4 - 6 * s ^ 5) / s ^ 3 := by
      field_simp; ring
    rw [this]
    refine div_nonpos_of_nonpos_of_nonneg ?_ (by positivity)
    have a1 : 0 ≤ s ^ 4 * (1 - s) := by positivity
    have a2 : 0 < 4 - 14 * s + 104 * s ^ 3 := by nlinarith [sq_nonneg (s - 1 / 4), sq_nonneg (s - 1 / 5), mul_nonneg hsp.le (sq_nonneg (s - 1 / 5))]
    nlinarith [pow_pos hsp 4]
  have hB : 0 < 45 / s + (s + 4) * (-3 * s ^ 2 + 34 * s + 28 + 24 / s) * (1 / 2 - s / 12)
      + (-4 / s ^ 3 + 14 / s ^ 2 - 52 - 28 * s + 6 * s ^ 2 - 52) * (s - s ^ 2 / 2 + s ^ 3 / 3) + 2 * (1 - 1 / s) + 4 / s ^ 2 - 64 / s + 34 - 63.072 := by
    have : 45 / s + (s + 4) * (-3 * s ^ 2 + 34 * s + 28 + 24 / s) * (1 / 2 - s / 12)
      + (-4 / s ^ 3 + 14 / s ^ 2 - 52 - 28 * s + 6 * s ^ 2 - 52) * (s - s ^ 2 / 2 + s ^ 3 / 3) + 2 * (1 - 1 / s) + 4 / s ^ 2 - 64 / s + 34 - 63.072
      = (43*s^0*(1-s)^6 + (105973/375)*s^1*(1-s)^5 + (55448/75)*s^2*(1-s)^4 + (75946/75)*s^3*(1-s)^3 + (57371/75)*s^4*(1-s)^2 + (84667/300)*s^5*(1-s)^1 + (16089/500)*s^6*(1-s)^0) / s := by
      field_simp; ring
    rw [this]
    refine div_pos ?_ hsp
    have : 0 < s ^ 6 := by positivity
    positivity
  have p1 := mul_le_mul_of_nonneg_left hu hP
  rw [eP] at p1
  have p2 := mul_le_mul_of_nonpos_left hL hV
  have p3 : 2 * (1 - 1 / s) ≤ (2 - 3 * s ^ 2) * log s := by nlinarith [mul_nonneg (sq_nonneg s) (neg_nonneg.2 hl0)]
  rw [f_of_x h0 h1 hs]
  linarith

/-- The gluon function on the whole Euclidean axis. -/
theorem f_lower {s : ℝ} (hs : 0 < s) : 0.876 + 13 / 18 * log (1 + s) < gluon.f s := by
  obtain ⟨x, h0, h1, h⟩ := exists_x hs
  have : 63.072 + 52 * log (1 + s) < 72 * gluon.f s := by
    rcases le_or_gt x (2 / 5) with hx | hx
    · exact f_lower_large h0 hx h
    · refine f_lower_small h0 h1 h ?_
      rw [h, div_le_one h0]; nlinarith
  linarith

end Qcd
