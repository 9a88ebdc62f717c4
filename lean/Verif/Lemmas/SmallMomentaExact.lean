import Verif.Lemmas.SmallMomenta

/-! # Lemmas on very small momenta: reciprocals, and the exact functions -/

namespace Qcd
open Fl Spec

variable {a b : Fl binary64} {l1 h1 l2 h2 : ℝ}

/-- The reciprocal of a large number, up to a relative error. -/
theorem Spec.In.invRel (ha : In a l1 h1) (p : 1 ≤ l1) (hO : h1 ≤ om) : In (a⁻¹) (0.999 * h1⁻¹) (1.001 * l1⁻¹) := by
  obtain ⟨v, hv, a1, a2⟩ := ha
  have hv0 : 0 < v := by linarith
  have hr : IsE (a⁻¹) (binary64.rnd (1 / v)) := value_div_one hv hv0.ne'
  have hi : 0 < v⁻¹ := inv_pos.2 hv0
  have b1 : v⁻¹ ≤ l1⁻¹ := inv_anti₀ (by linarith) a1
  have b2 : h1⁻¹ ≤ v⁻¹ := inv_anti₀ hv0 a2
  have b3 : v⁻¹ ≤ 1 := inv_le_one_of_one_le₀ (by linarith)
  have e1 : (2 : ℝ) ^ (-1022 : ℤ) ≤ |1 / v| := by
    rw [one_div, abs_of_pos hi]
    refine le_trans ?_ (inv_anti₀ hv0 (a2.trans hO))
    unfold om
    rw [← zpow_natCast, ← zpow_neg]
    exact zpow_le_zpow_right₀ (by norm_num) (by norm_num)
  have e2 : |1 / v| ≤ (2 : ℝ) ^ (1023 : ℤ) := by
    rw [one_div, abs_of_pos hi]
    exact b3.trans (one_le_zpow₀ (by norm_num) (by norm_num))
  obtain ⟨d, hd, hd'⟩ := round64_rel e1 e2
  have hd2 := abs_le.1 (hd.trans (by norm_num : (2 : ℝ) ^ (-53 : ℤ) ≤ 1 / 10 ^ 15))
  refine ⟨1 / v * (1 + d), hr.trans (congrArg some hd'), ?_, ?_⟩
  · rw [one_div]; nlinarith
  · rw [one_div]; nlinarith

/-- The product of a small and a large positive number, up to a relative error. -/
theorem Spec.In.mulRel (ha : In a l1 h1) (hb : In b l2 h2) (p1 : 0 < l1) (p2 : 0 < l2) (hL : 2 ^ (-1022 : ℤ) ≤ l1 * l2) (hO : h1 * h2 ≤ om) :
    In (a * b) (0.999 * (l1 * l2)) (1.001 * (h1 * h2)) := by
  obtain ⟨v, hv, a1, a2⟩ := ha
  obtain ⟨w, hw, b1, b2⟩ := hb
  have q1 : l1 * l2 ≤ v * w := mul_le_mul a1 b1 p2.le (by linarith)
  have q2 : v * w ≤ h1 * h2 := mul_le_mul a2 b2 (by linarith) (by linarith)
  have q0 : 0 < v * w := lt_of_lt_of_le (mul_pos p1 p2) q1
  have e1 : (2 : ℝ) ^ (-1022 : ℤ) ≤ |v * w| := by rw [abs_of_pos q0]; exact hL.trans q1
  have e2 : |v * w| ≤ (2 : ℝ) ^ (1023 : ℤ) := by
    rw [abs_of_pos q0]
    refine (q2.trans hO).trans ?_
    unfold om
    rw [← zpow_natCast]
    exact zpow_le_zpow_right₀ (by norm_num) (by norm_num)
  obtain ⟨d, hd, hd'⟩ := round64_rel e1 e2
  have hd2 := abs_le.1 (hd.trans (by norm_num : (2 : ℝ) ^ (-53 : ℤ) ≤ 1 / 10 ^ 15))
  refine ⟨v * w * (1 + d), (value_mul hv hw).trans (congrArg some hd'), ?_, ?_⟩
  · nlinarith
  · nlinarith

theorem Spec.In.invNeg (ha : In (-a) l1 h1) (p : 1 ≤ l1) (hO : h1 ≤ om) : In (a⁻¹) (-(1.001 * l1⁻¹)) (-(0.999 * h1⁻¹)) := by
  obtain ⟨v, hv, a1, a2⟩ := ha
  have hv' : Is a (-v) := by
    have := value_neg hv
    rw [show Fl.neg (-a) = a from Fl.neg_neg' a] at this
    exact this
  have hv0 : 0 < v := by linarith
  have hr : IsE (a⁻¹) (binary64.rnd (1 / -v)) := value_div_one hv' (neg_ne_zero.2 hv0.ne')
  have hi : 0 < v⁻¹ := inv_pos.2 hv0
  have b1 : v⁻¹ ≤ l1⁻¹ := inv_anti₀ (by linarith) a1
  have b2 : h1⁻¹ ≤ v⁻¹ := inv_anti₀ hv0 a2
  have b3 : v⁻¹ ≤ 1 := inv_le_one_of_one_le₀ (by linarith)
  have e0 : (1 : ℝ) / -v = -v⁻¹ := by rw [one_div, _root_.inv_neg]
  rw [e0] at hr
  have e1 : (2 : ℝ) ^ (-1022 : ℤ) ≤ |-v⁻¹| := by
    rw [abs_neg, abs_of_pos hi]
    refine le_trans ?_ (inv_anti₀ hv0 (a2.trans hO))
    unfold om
    rw [← zpow_natCast, ← zpow_neg]
    exact zpow_le_zpow_right₀ (by norm_num) (by norm_num)
  have e2 : |-v⁻¹| ≤ (2 : ℝ) ^ (1023 : ℤ) := by
    rw [abs_neg, abs_of_pos hi]
    exact b3.trans (one_le_zpow₀ (by norm_num) (by norm_num))
  obtain ⟨d, hd, hd'⟩ := round64_rel e1 e2
  have hd2 := abs_le.1 (hd.trans (by norm_num : (2 : ℝ) ^ (-53 : ℤ) ≤ 1 / 10 ^ 15))
  refine ⟨-v⁻¹ * (1 + d), hr.trans (congrArg some hd'), ?_, ?_⟩ <;> nlinarith

/-- The same with a negative factor. -/
theorem Spec.In.mulRelNeg (ha : In a (-h1) (-l1)) (hb : In b l2 h2) (p1 : 0 < l1) (p2 : 0 < l2) (hL : 2 ^ (-1022 : ℤ) ≤ l1 * l2) (hO : h1 * h2 ≤ om) :
    In (a * b) (-(1.001 * (h1 * h2))) (-(0.999 * (l1 * l2))) := by
  obtain ⟨v, hv, a1, a2⟩ := ha
  obtain ⟨w, hw, b1, b2⟩ := hb
  have q1 : l1 * l2 ≤ -v * w := mul_le_mul (by linarith) b1 p2.le (by linarith)
  have q2 : -v * w ≤ h1 * h2 := mul_le_mul (by linarith) b2 (by linarith) (by linarith)
  have q0 : 0 < -v * w := lt_of_lt_of_le (mul_pos p1 p2) q1
  have e0 : |v * w| = -v * w := by rw [neg_mul, abs_of_neg (by linarith)]
  have e1 : (2 : ℝ) ^ (-1022 : ℤ) ≤ |v * w| := by rw [e0]; exact hL.trans q1
  have e2 : |v * w| ≤ (2 : ℝ) ^ (1023 : ℤ) := by
    rw [e0]
    refine (q2.trans hO).trans ?_
    unfold om
    rw [← zpow_natCast]
    exact zpow_le_zpow_right₀ (by norm_num) (by norm_num)
  obtain ⟨d, hd, hd'⟩ := round64_rel e1 e2
  have hd2 := abs_le.1 (hd.trans (by norm_num : (2 : ℝ) ^ (-53 : ℤ) ≤ 1 / 10 ^ 15))
  refine ⟨v * w * (1 + d), (value_mul hv hw).trans (congrArg some hd'), ?_, ?_⟩ <;> nlinarith

/-- A negative number times one. -/
theorem Spec.In.mulOne (ha : In a l1 h1) {lo hi : ℝ} (M : ℝ) (hO : M ≤ om) (m1 : -M ≤ l1) (m2 : h1 ≤ M)
    (e1 : lo + 1 / 10 ^ 15 * (M + 1) ≤ l1) (e2 : h1 + 1 / 10 ^ 15 * (M + 1) ≤ hi) : In (a * ofR 1) lo hi := by
  obtain ⟨v, hv, a1, a2⟩ := ha
  have i1 : Is (ofR 1 : Fl binary64) 1 := is_ofR (by exact_mod_cast binary64_nat (n := 1) (by norm_num))
  have := value_mul hv i1
  rw [mul_one] at this
  exact In.of_round (x := v) (M := M) this (by rw [abs_le]; constructor <;> linarith) hO (by linarith) (by linarith)

/-! ### The exact functions -/

theorem ghost_exact {s : ℝ} (h0 : 0 < s) (h1 : s ≤ 1 / 10 ^ 15) (hl : -140 ≤ Real.log s) : ghost.g s < 0.2084 := by
  have e : 12 * ghost.g s = 2 + 1 / s - 2 * s * Real.log s + (2 * s + 3 - 1 / s ^ 2) * Real.log (1 + s) := by
    simp only [ghost.g, ghost.g_sep, ghost.l_g, ghost.r_g, ofR_real, ln_real]
    rw [add_comm s 1]
    field_simp
    ring
  have b1 := log_one_add_lower h0.le
  have c0 : 2 * s + 3 - 1 / s ^ 2 ≤ 0 := by
    have : 3 + 2 * s ≤ 1 / s ^ 2 := by rw [le_div_iff₀ (by positivity)]; norm_num at h1; nlinarith
    linarith
  have b2 := mul_le_mul_of_nonpos_left b1 c0
  have e2 : (2 * s + 3 - 1 / s ^ 2) * (s - s ^ 2 / 2) = -(1 / s) + 1 / 2 + (3 * s + s ^ 2 / 2 - s ^ 3) := by field_simp; ring
  have b3 : -(2 * s * Real.log s) ≤ 280 * s := by nlinarith
  norm_num at h1
  nlinarith

theorem gluon_exact {s : ℝ} (h0 : 0 < s) (h1 : s ≤ 1 / 10 ^ 15) (hl : -140 ≤ Real.log s) : 0.62 / s < gluon.f s ∧ gluon.f s < 0.63 / s := by
  obtain ⟨x, x0, x1, hx⟩ := exists_x h0
  have e := f_of_x x0 x1 hx
  have hx' : (0 : ℝ) < 1 - x := by linarith
  have hl0 : Real.log s ≤ 0 := Real.log_nonpos h0.le (h1.trans (by norm_num))
  have hsm : s ≤ 1 / 10 ^ 15 := h1
  norm_num at hsm
  have hw : 10 ^ 15 ≤ 1 / s := by rw [le_div_iff₀ h0]; norm_num; linarith
  have hx9 : 0.999 ≤ x := by
    by_contra hc
    have : (1 - x) ^ 2 = s * x := by rw [hx]; field_simp
    nlinarith
  -- the first logarithm
  have hP : 0 ≤ -3 * s ^ 2 + 34 * s + 28 + 24 / s := by
    have : 0 < 24 / s := by positivity
    nlinarith
  have u1 := Real.log_le_sub_one_of_pos (inv_pos.2 x0)
  rw [Real.log_inv] at u1
  have A1 : (1 + x) / (1 - x) * -Real.log x ≤ 2.01 := by
    calc (1 + x) / (1 - x) * -Real.log x ≤ (1 + x) / (1 - x) * (x⁻¹ - 1) := by gcongr
      _ = x⁻¹ + 1 := by field_simp
      _ ≤ 2.01 := by
        have : x⁻¹ ≤ 1.01 := by rw [inv_le_comm₀ x0 (by norm_num)]; norm_num at *; linarith
        linarith
  have A2 : 2 ≤ (1 + x) / (1 - x) * -Real.log x := by
    have := neg_log_lower x0 x1 hx
    calc (2 : ℝ) ≤ (s + 4) * (1 / 2 - s / 12) := by nlinarith
      _ = (1 + x) / (1 - x) * ((1 - x ^ 2) / x * (1 / 2 - s / 12)) := by rw [hx]; field_simp; ring
      _ ≤ _ := by gcongr
  have b1 := mul_le_mul_of_nonneg_left A1 hP
  have b2 := mul_le_mul_of_nonneg_left A2 hP
  -- the second logarithm
  have hC : -4 / s ^ 3 + 14 / s ^ 2 - 52 - 28 * s + 6 * s ^ 2 ≤ 0 := by
    have e1 : -4 / s ^ 3 + 14 / s ^ 2 = (14 * s - 4) / s ^ 3 := by field_simp; ring
    have : (14 * s - 4) / s ^ 3 ≤ 0 := div_nonpos_of_nonpos_of_nonneg (by linarith) (by positivity)
    nlinarith
  have b3 := mul_le_mul_of_nonpos_left (log_one_add_lower h0.le) hC
  have b4 := mul_le_mul_of_nonpos_left (log_one_add_upper h0.le) hC
  have e3 : (-4 / s ^ 3 + 14 / s ^ 2 - 52 - 28 * s + 6 * s ^ 2) * (s - s ^ 2 / 2)
      = -4 / s ^ 2 + 16 * (1 / s) - 7 - 52 * s - 2 * s ^ 2 + 20 * s ^ 3 - 3 * s ^ 4 := by field_simp; ring
  have e4 : (-4 / s ^ 3 + 14 / s ^ 2 - 52 - 28 * s + 6 * s ^ 2) * (s - s ^ 2 / 2 + s ^ 3 / 3)
      = -4 / s ^ 2 + 16 * (1 / s) - 25 / 3 - 142 / 3 * s - 2 * s ^ 2 + 8 / 3 * s ^ 3 - 37 / 3 * s ^ 4 + 2 * s ^ 5 := by field_simp; ring
  rw [e3] at b3
  rw [e4] at b4
  have hss : s ^ 2 ≤ 1 / 10 := by
    have := pow_le_pow_left₀ h0.le (by linarith : s ≤ 1 / 10) 2
    linarith
  have b5 : (2 - 3 * s ^ 2) * Real.log s ≤ 0 := mul_nonpos_of_nonneg_of_nonpos (by linarith) hl0
  have b6 : -280 ≤ (2 - 3 * s ^ 2) * Real.log s := by
    have := mul_nonneg (sq_nonneg s) (neg_nonneg.2 hl0)
    linarith
  have e5 : (1 + x) / (1 - x) * (-3 * s ^ 2 + 34 * s + 28 + 24 / s) * (-Real.log x)
      = (-3 * s ^ 2 + 34 * s + 28 + 24 / s) * ((1 + x) / (1 - x) * -Real.log x) := by ring
  rw [e5] at e
  have hs1 : s ≤ 1 := by linarith
  have p2 : s ^ 2 ≤ 1 := pow_le_one₀ h0.le hs1
  have p3 : s ^ 3 ≤ 1 := pow_le_one₀ h0.le hs1
  have p4 : s ^ 4 ≤ 1 := pow_le_one₀ h0.le hs1
  have p5' : s ^ 5 ≤ 1 := pow_le_one₀ h0.le hs1
  have p5 : 0 ≤ s ^ 5 := by positivity
  have q3 : 0 ≤ s ^ 3 := by positivity
  have q4 : 0 ≤ s ^ 4 := by positivity
  have q2 : 0 ≤ s ^ 2 := by positivity
  have f1 : (45 : ℝ) / s = 45 * (1 / s) := by ring
  have f2 : (24 : ℝ) / s = 24 * (1 / s) := by ring
  have f3 : (64 : ℝ) / s = 64 * (1 / s) := by ring
  have f4 : (-4 : ℝ) / s ^ 2 = -(4 / s ^ 2) := by ring
  have f5 : (0.62 : ℝ) / s = 0.62 * (1 / s) := by ring
  have f6 : (0.63 : ℝ) / s = 0.63 * (1 / s) := by ring
  rw [f1, f3] at e
  rw [f2] at e b1 b2
  rw [f4] at b3 b4
  rw [f5, f6]
  generalize 1 / s = w at *
  generalize 4 / s ^ 2 = w2 at *
  generalize (-3 * s ^ 2 + 34 * s + 28 + 24 * w) * ((1 + x) / (1 - x) * -Real.log x) = Q at *
  norm_num at hw
  constructor <;> linarith

end Qcd
