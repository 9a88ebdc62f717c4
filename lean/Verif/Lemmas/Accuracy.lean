import Mathlib.Analysis.SpecialFunctions.Pow.Real
import Mathlib.Analysis.Complex.ExponentialBounds
import Verif.Lemmas.Binary64

/-! # Lemmas on relative errors -/

namespace Qcd
open Fl Spec

theorem big_pos : 0 < big := by unfold big; positivity
theorem one_lt_big : 1024 < big := by unfold big; norm_num

namespace Spec.Accurate
variable {r : Rounding} {u : ℝ}

theorem rel (h : Accurate r u) (hu : 0 ≤ u) {x : ℝ} (hx : x = 0 ∨ ((big ^ 4)⁻¹ ≤ |x| ∧ |x| ≤ big ^ 4)) :
    ∃ d : ℝ, |d| ≤ u ∧ r.rnd x = ((x * (1 + d) : ℝ) : EReal) := by
  rcases hx with rfl | ⟨h1, h2⟩
  · exact ⟨0, by simpa using hu, by rw [r.zero]; simp⟩
  · exact h.rnd x h1 h2

end Spec.Accurate

/-- The square of a moderate number times a factor close to one. -/
theorem moderate_sq {x d : ℝ} (hx : Moderate x) (hd : |d| ≤ 1 / 1024) :
    x * x * (1 + d) = 0 ∨ ((big ^ 3)⁻¹ ≤ |x * x * (1 + d)| ∧ |x * x * (1 + d)| ≤ big ^ 3) := by
  have hB := one_lt_big
  have hB0 := big_pos
  rcases hx with rfl | ⟨h1, h2⟩
  · left; simp
  right
  have hd' := abs_le.1 hd
  rw [abs_mul, abs_of_pos (by linarith : 0 < 1 + d), abs_mul]
  have hi : 0 < big⁻¹ := by positivity
  have e1 : big⁻¹ * big⁻¹ ≤ |x| * |x| := mul_self_le_mul_self hi.le h1
  have e2 : |x| * |x| ≤ big * big := mul_self_le_mul_self (abs_nonneg x) h2
  constructor
  · have e3 : (big ^ 3)⁻¹ = big⁻¹ * big⁻¹ * big⁻¹ := by rw [← mul_inv, ← mul_inv]; congr 1; ring
    rw [e3]
    have e4 : big⁻¹ ≤ 1 + d := by
      have : big⁻¹ ≤ 1 / 1024 := by rw [inv_eq_one_div]; exact one_div_le_one_div_of_le (by norm_num) hB.le
      linarith
    gcongr
  · calc |x| * |x| * (1 + d) ≤ big * big * big := mul_le_mul e2 (by linarith) (by linarith) (by positivity)
      _ = big ^ 3 := by ring

theorem range_mono {x : ℝ} (h : x = 0 ∨ ((big ^ 3)⁻¹ ≤ |x| ∧ |x| ≤ big ^ 3)) : x = 0 ∨ ((big ^ 4)⁻¹ ≤ |x| ∧ |x| ≤ big ^ 4) := by
  have hB := one_lt_big
  rcases h with h | ⟨h1, h2⟩
  · exact Or.inl h
  · have : big ^ 3 ≤ big ^ 4 := pow_le_pow_right₀ (by linarith) (by norm_num)
    refine Or.inr ⟨le_trans ?_ h1, h2.trans this⟩
    exact inv_anti₀ (by have := big_pos; positivity) this

/-- Binary64 with a correctly rounded exponential is accurate to `2^-53`. -/
theorem round64_rel {x : ℝ} (h1 : (2 : ℝ) ^ (-1022 : ℤ) ≤ |x|) (h2 : |x| ≤ (2 : ℝ) ^ (1023 : ℤ)) :
    ∃ d : ℝ, |d| ≤ 2 ^ (-53 : ℤ) ∧ round64 x = ((x * (1 + d) : ℝ) : EReal) := by
  have hx0 : x ≠ 0 := by
    rintro rfl; rw [abs_zero] at h1
    exact absurd h1 (not_le.2 (by positivity))
  have habs : 0 < |x| := abs_pos.2 hx0
  have hlog : -1022 ≤ Int.log 2 |x| := (Int.zpow_le_iff_le_log (b := 2) (by norm_num) habs (x := -1022)).1 (by exact_mod_cast h1)
  have hex : expo |x| = Int.log 2 |x| := by unfold expo; omega
  have hle : (2 : ℝ) ^ expo |x| ≤ |x| := by rw [hex]; exact_mod_cast Int.zpow_log_le_self (b := 2) (by norm_num) habs
  have herr := abs_roundPos_sub (x := |x|)
  have hrel : |(roundPos (|x|)) - (|x|)| ≤ 2 ^ (-53 : ℤ) * |x| := by
    refine herr.trans ?_
    rw [show expo |x| - 53 = -53 + expo |x| by ring, zpow_add₀ (by norm_num)]
    gcongr
  have h53 : |round53 x - x| ≤ 2 ^ (-53 : ℤ) * |x| := by
    unfold round53
    split_ifs with h
    · rw [abs_of_neg h] at hrel ⊢
      rwa [show -roundPos (-x) - x = -(roundPos (-x) - -x) by ring, abs_neg]
    · rwa [abs_of_nonneg (not_lt.1 h)] at hrel ⊢
  refine ⟨(round53 x - x) / x, ?_, ?_⟩
  · rw [abs_div, div_le_iff₀ habs]; exact h53
  · have e : x * (1 + (round53 x - x) / x) = round53 x := by field_simp; ring
    rw [e]
    refine round64_of rfl ?_
    rw [round53_abs]
    have := roundPos_mono habs.le h2
    rw [roundPos_zpow (by norm_num)] at this
    refine this.trans_lt ?_
    rw [overflow_eq]
    exact zpow_lt_zpow_right₀ (by norm_num) (by norm_num)

theorem big_four : big ^ 4 = (2 : ℝ) ^ (1000 : ℤ) := by
  unfold big
  have : (1000 : ℤ) = ((1000 : ℕ) : ℤ) := rfl
  rw [this, zpow_natCast, ← pow_mul]

theorem exp_bound {x : ℝ} (h : |x| ≤ 401) : (big ^ 4)⁻¹ ≤ Real.exp x ∧ Real.exp x ≤ big ^ 4 ∧ Real.exp x ≤ big ^ 4 / 1024 := by
  have key : Real.exp 401 ≤ big ^ 4 / 1024 := by
    have h1 : Real.exp 1 ≤ 4 := by have := Real.exp_one_lt_d9; linarith
    have h2 : Real.exp 401 = Real.exp 1 ^ 401 := by rw [← Real.exp_nat_mul]; norm_num
    rw [h2, le_div_iff₀ (by norm_num)]
    calc Real.exp 1 ^ 401 * 1024 ≤ 4 ^ 401 * 1024 := by gcongr
      _ = (2 : ℝ) ^ 802 * 2 ^ 10 := by
        rw [show (4 : ℝ) = 2 ^ 2 by norm_num, ← pow_mul, show (1024 : ℝ) = 2 ^ 10 by norm_num]
      _ = (2 : ℝ) ^ 812 := by rw [← pow_add]
      _ ≤ 2 ^ 1000 := pow_le_pow_right₀ (by norm_num) (by norm_num)
      _ = big ^ 4 := by unfold big; rw [← pow_mul]
  have hB : 0 < big ^ 4 := by have := big_pos; positivity
  have hd : big ^ 4 / 1024 ≤ big ^ 4 := by rw [div_le_iff₀ (by norm_num)]; nlinarith
  have h' := abs_le.1 h
  refine ⟨?_, ?_, ?_⟩
  · have : Real.exp (-401) ≤ Real.exp x := Real.exp_le_exp.2 h'.1
    refine le_trans ?_ this
    rw [Real.exp_neg]
    exact inv_anti₀ (Real.exp_pos _) (key.trans hd)
  · exact (Real.exp_le_exp.2 h'.2).trans (key.trans hd)
  · exact (Real.exp_le_exp.2 h'.2).trans key

theorem binary64_accurate : Accurate binary64 (2 ^ (-53 : ℤ)) := by
  have hlo : (2 : ℝ) ^ (-1022 : ℤ) ≤ (big ^ 4)⁻¹ := by
    rw [big_four, ← zpow_neg]
    exact zpow_le_zpow_right₀ (by norm_num) (by norm_num)
  have hhi : big ^ 4 ≤ (2 : ℝ) ^ (1023 : ℤ) := by
    rw [big_four]
    exact zpow_le_zpow_right₀ (by norm_num) (by norm_num)
  refine ⟨fun x h1 h2 => round64_rel (hlo.trans h1) (h2.trans hhi), fun x hx => ?_⟩
  obtain ⟨h1, h2, _⟩ := exp_bound hx
  have ha : |Real.exp x| = Real.exp x := abs_of_pos (Real.exp_pos _)
  exact round64_rel (by rw [ha]; exact hlo.trans h1) (by rw [ha]; exact h2.trans hhi)

variable {r : Rounding} {u : ℝ}

theorem sqrt_range {t : ℝ} (h1 : (big ^ 4)⁻¹ ≤ t) (h2 : t ≤ big ^ 4) : (big ^ 4)⁻¹ ≤ |Real.sqrt t| ∧ |Real.sqrt t| ≤ big ^ 4 := by
  have hB : 1 ≤ big ^ 4 := one_le_pow₀ (by linarith [one_lt_big])
  have hB0 : 0 < big ^ 4 := by linarith
  have hi : (big ^ 4)⁻¹ ≤ 1 := inv_le_one_of_one_le₀ hB
  have hi0 : 0 < (big ^ 4)⁻¹ := by positivity
  have ht : 0 < t := by linarith
  rw [abs_of_nonneg (Real.sqrt_nonneg t)]
  constructor
  · apply Real.le_sqrt_of_sq_le
    nlinarith
  · rw [Real.sqrt_le_left hB0.le]
    nlinarith

/-- The argument of the exponential. -/
theorem argument (h : Accurate r u) (hu : 0 ≤ u) (hu' : u ≤ 1 / 1024) {d b : ℝ} (hd : Moderate d) (hx : Moderate (d * b))
    (hmax : |d * b| ≤ 400) :
    ∃ w : ℝ, mulE r (r.rnd d) b = (w : EReal) ∧ |w - d * b| ≤ ((1 + u) ^ 2 - 1) * |d * b| ∧ |w| ≤ 401 := by
  have hB := one_lt_big
  have hB4 : big ≤ big ^ 4 := le_self_pow₀ (by linarith) (by norm_num)
  have hi : (big ^ 4)⁻¹ ≤ big⁻¹ := inv_anti₀ (by linarith) hB4
  have hdr : d = 0 ∨ ((big ^ 4)⁻¹ ≤ |d| ∧ |d| ≤ big ^ 4) := hd.imp id fun h => ⟨hi.trans h.1, h.2.trans hB4⟩
  obtain ⟨d1, hd1, e1⟩ := h.rel hu hdr
  have a1 := abs_le.1 hd1
  have hB2 : big * big ≤ big ^ 4 := by
    have := pow_le_pow_right₀ (by linarith : (1 : ℝ) ≤ big) (by norm_num : 2 ≤ 4)
    linarith [sq big]
  have hi2 : (big ^ 4)⁻¹ ≤ big⁻¹ * big⁻¹ := by rw [← mul_inv]; exact inv_anti₀ (by nlinarith) hB2
  have hbi : big⁻¹ ≤ 1 / 1024 := by rw [inv_eq_one_div]; exact one_div_le_one_div_of_le (by norm_num) hB.le
  have hbi0 : 0 < big⁻¹ := inv_pos.2 (by linarith)
  have hxr : d * (1 + d1) * b = 0 ∨ ((big ^ 4)⁻¹ ≤ |d * (1 + d1) * b| ∧ |d * (1 + d1) * b| ≤ big ^ 4) := by
    have e : d * (1 + d1) * b = d * b * (1 + d1) := by ring
    rw [e]
    rcases hx with h0 | ⟨h1, h2⟩
    · left; rw [h0]; ring
    · right
      rw [abs_mul, abs_of_pos (by linarith : 0 < 1 + d1)]
      constructor
      · refine hi2.trans (mul_le_mul h1 (by linarith) hbi0.le (abs_nonneg _))
      · refine le_trans (mul_le_mul h2 (by linarith : 1 + d1 ≤ big) (by linarith) (by linarith)) hB2
  obtain ⟨d2, hd2, e2⟩ := h.rel hu hxr
  have a2 := abs_le.1 hd2
  have hdiff : |d * (1 + d1) * b * (1 + d2) - d * b| ≤ ((1 + u) ^ 2 - 1) * |d * b| := by
    have e : d * (1 + d1) * b * (1 + d2) - d * b = (d1 + d2 + d1 * d2) * (d * b) := by ring
    rw [e, abs_mul]
    have : |d1 + d2 + d1 * d2| ≤ (1 + u) ^ 2 - 1 := by
      rw [abs_le]; constructor <;> nlinarith
    exact mul_le_mul_of_nonneg_right this (abs_nonneg _)
  refine ⟨d * (1 + d1) * b * (1 + d2), ?_, hdiff, ?_⟩
  · rw [e1]; simp only [mulE, EReal.toReal_coe, EReal.coe_ne_top, EReal.coe_ne_bot, if_false]; exact e2
  · have h3 : |d * (1 + d1) * b * (1 + d2)| ≤ |d * (1 + d1) * b * (1 + d2) - d * b| + |d * b| := by
      have := abs_add_le (d * (1 + d1) * b * (1 + d2) - d * b) (d * b)
      rwa [sub_add_cancel] at this
    have h4 : ((1 + u) ^ 2 - 1) * |d * b| ≤ 1 := by
      have : (1 + u) ^ 2 - 1 ≤ 1 / 400 := by nlinarith
      have := mul_le_mul this hmax (abs_nonneg _) (by norm_num)
      linarith
    linarith

/-- The computed exponential. -/
theorem exponential (h : Accurate r u) (hu : 0 ≤ u) (hu' : u ≤ 1 / 1024) {d b : ℝ} (hd : Moderate d) (hx : Moderate (d * b))
    (hmax : |d * b| ≤ 400) :
    ∃ E : ℝ, expE r (mulE r (r.rnd d) b) = (E : EReal) ∧
      Real.exp (d * b) * (Real.exp (-(((1 + u) ^ 2 - 1) * |d * b|)) * (1 - u)) ≤ E ∧
      E ≤ Real.exp (d * b) * (Real.exp (((1 + u) ^ 2 - 1) * |d * b|) * (1 + u)) ∧ 0 < E ∧ E ≤ big ^ 4 / 512 := by
  obtain ⟨w, e1, h1, h2⟩ := argument h hu hu' hd hx hmax
  obtain ⟨d3, hd3, e3⟩ := h.exp w h2
  have a3 := abs_le.1 hd3
  have a1 := abs_le.1 h1
  have hp := Real.exp_pos w
  have m1 : Real.exp (d * b) * Real.exp (-(((1 + u) ^ 2 - 1) * |d * b|)) ≤ Real.exp w := by
    rw [← Real.exp_add]; exact Real.exp_le_exp.2 (by linarith)
  have m2 : Real.exp w ≤ Real.exp (d * b) * Real.exp (((1 + u) ^ 2 - 1) * |d * b|) := by
    rw [← Real.exp_add]; exact Real.exp_le_exp.2 (by linarith)
  obtain ⟨_, _, hb⟩ := exp_bound h2
  refine ⟨Real.exp w * (1 + d3), ?_, ?_, ?_, ?_, ?_⟩
  · rw [e1]; simp only [expE, EReal.toReal_coe, EReal.coe_ne_top, EReal.coe_ne_bot, if_false]; exact e3
  · rw [← mul_assoc]
    exact mul_le_mul m1 (by linarith) (by linarith) hp.le
  · rw [← mul_assoc]
    exact mul_le_mul m2 (by linarith) (by linarith) (by positivity)
  · exact mul_pos hp (by linarith)
  · have : Real.exp w * (1 + d3) ≤ Real.exp w * 2 := by gcongr; linarith
    linarith

/-- The reciprocal of a sum with one. -/
theorem reciprocal (h : Accurate r u) (hu : 0 ≤ u) (hu' : u ≤ 1 / 1024) {E X e : ℝ} (hX : 0 < X) (he : 0 ≤ e)
    (h1 : X * (Real.exp (-e) * (1 - u)) ≤ E) (h2 : E ≤ X * (Real.exp e * (1 + u))) (h3 : 0 < E) (h4 : E ≤ big ^ 4 / 512) :
    ∃ v : ℝ, addInv r (E : EReal) = (v : EReal) ∧ (X + 1)⁻¹ * ((1 + u) / (1 - u) ^ 2 * Real.exp e)⁻¹ ≤ v ∧
      v ≤ (X + 1)⁻¹ * ((1 + u) / (1 - u) ^ 2 * Real.exp e) := by
  have hB := one_lt_big
  have hB4 : 1024 ≤ big ^ 4 := le_trans hB.le (le_self_pow₀ (by linarith) (by norm_num))
  have hB4i : (big ^ 4)⁻¹ ≤ 1 / 1024 := by rw [inv_eq_one_div]; exact one_div_le_one_div_of_le (by norm_num) hB4
  have hee : 1 ≤ Real.exp e := Real.one_le_exp he
  have hei : Real.exp (-e) ≤ 1 := by rw [Real.exp_neg]; exact inv_le_one_of_one_le₀ hee
  have hep := Real.exp_pos e
  have henp := Real.exp_pos (-e)
  obtain ⟨d4, hd4, e4⟩ := h.rnd (E + 1) (by rw [abs_of_pos (by linarith)]; linarith) (by rw [abs_of_pos (by linarith)]; linarith)
  have a4 := abs_le.1 hd4
  set D := (E + 1) * (1 + d4) with hD
  have hDlo : (E + 1) * (1 - u) ≤ D := mul_le_mul_of_nonneg_left (by linarith) (by linarith)
  have hDhi : D ≤ (E + 1) * (1 + u) := mul_le_mul_of_nonneg_left (by linarith) (by linarith)
  have hD0 : 0 < D := mul_pos (by linarith) (by linarith)
  have hDlow : 1 / 2 ≤ D := by nlinarith
  have hDb : D ≤ big ^ 4 := by nlinarith
  have hr1 : (big ^ 4)⁻¹ ≤ |1 / D| := by
    rw [abs_of_pos (by positivity), ← one_div]; exact one_div_le_one_div_of_le hD0 hDb
  have hr2 : |1 / D| ≤ big ^ 4 := by
    rw [abs_of_pos (by positivity), div_le_iff₀ hD0]; nlinarith
  obtain ⟨d5, hd5, e5⟩ := h.rnd (1 / D) hr1 hr2
  have a5 := abs_le.1 hd5
  -- bounds of the sum
  have k1 : (X + 1) * (Real.exp (-e) * (1 - u)) ≤ E + 1 := by
    have : Real.exp (-e) * (1 - u) ≤ 1 := by nlinarith
    nlinarith
  have k2 : E + 1 ≤ (X + 1) * (Real.exp e * (1 + u)) := by
    have : 1 ≤ Real.exp e * (1 + u) := by nlinarith
    nlinarith
  have hu1 : 0 < 1 - u := by linarith
  have l1 : (X + 1) * (Real.exp (-e) * (1 - u) ^ 2) ≤ D := by
    calc (X + 1) * (Real.exp (-e) * (1 - u) ^ 2) = (X + 1) * (Real.exp (-e) * (1 - u)) * (1 - u) := by ring
      _ ≤ (E + 1) * (1 - u) := mul_le_mul_of_nonneg_right k1 hu1.le
      _ ≤ D := hDlo
  have l2 : D ≤ (X + 1) * (Real.exp e * (1 + u) ^ 2) := by
    calc D ≤ (E + 1) * (1 + u) := hDhi
      _ ≤ (X + 1) * (Real.exp e * (1 + u)) * (1 + u) := mul_le_mul_of_nonneg_right k2 (by linarith)
      _ = _ := by ring
  have hX1 : 0 < X + 1 := by linarith
  refine ⟨1 / D * (1 + d5), ?_, ?_, ?_⟩
  · have e4' : r.rnd (E + 1) = (D : EReal) := e4
    simp only [addInv, EReal.toReal_coe, EReal.coe_ne_top, if_false, e4']
    exact e5
  · have : (X + 1)⁻¹ * ((1 + u) / (1 - u) ^ 2 * Real.exp e)⁻¹ ≤ 1 / D * (1 - u) := by
      rw [mul_inv, inv_div, one_div, mul_comm D⁻¹, ← div_eq_mul_inv (1 - u) D, le_div_iff₀ hD0, mul_comm _ D]
      have : D * ((X + 1)⁻¹ * ((1 - u) ^ 2 / (1 + u) * (Real.exp e)⁻¹)) ≤
          (X + 1) * (Real.exp e * (1 + u) ^ 2) * ((X + 1)⁻¹ * ((1 - u) ^ 2 / (1 + u) * (Real.exp e)⁻¹)) :=
        mul_le_mul_of_nonneg_right l2 (by positivity)
      refine this.trans ?_
      have e : (X + 1) * (Real.exp e * (1 + u) ^ 2) * ((X + 1)⁻¹ * ((1 - u) ^ 2 / (1 + u) * (Real.exp e)⁻¹)) = (1 + u) * (1 - u) ^ 2 := by
        field_simp
      rw [e]; nlinarith [sq_nonneg u]
    refine this.trans ?_
    gcongr; linarith
  · have : 1 / D ≤ 1 / ((X + 1) * (Real.exp (-e) * (1 - u) ^ 2)) := one_div_le_one_div_of_le (by positivity) l1
    calc 1 / D * (1 + d5) ≤ 1 / ((X + 1) * (Real.exp (-e) * (1 - u) ^ 2)) * (1 + u) :=
          mul_le_mul this (by linarith) (by linarith) (by positivity)
      _ = _ := by rw [Real.exp_neg]; field_simp

/-- The reciprocal of a difference with one. -/
theorem reciprocal_sub (h : Accurate r u) (hu : 0 ≤ u) (hu' : u ≤ 1 / 1024) {E X e H : ℝ} (hX : big⁻¹ ≤ X - 1) (he : 0 ≤ e)
    (h1 : X * (Real.exp (-e) * (1 - u)) ≤ E) (h2 : E ≤ X * (Real.exp e * (1 + u))) (h4 : E ≤ big ^ 4 / 512)
    (hH : H = X * (Real.exp e * (1 + u) - 1) / (X - 1)) (hH1 : H < 1 / 2) :
    ∃ v : ℝ, subInv r (E : EReal) = (v : EReal) ∧ (X - 1)⁻¹ * ((1 - u) / ((1 + H) * (1 + u))) ≤ v ∧
      v ≤ (X - 1)⁻¹ * ((1 + u) / ((1 - H) * (1 - u))) := by
  have hB := one_lt_big
  have hb0 : 0 < big⁻¹ := inv_pos.2 (by linarith)
  have hX1 : 0 < X - 1 := by linarith
  have hX0 : 0 < X := by linarith
  have hB4 : 1024 ≤ big ^ 4 := le_trans hB.le (le_self_pow₀ (by linarith) (by norm_num))
  have hee : 1 ≤ Real.exp e := Real.one_le_exp he
  have hei : Real.exp (-e) * Real.exp e = 1 := by rw [← Real.exp_add]; simp
  have henp := Real.exp_pos (-e)
  have hHX : (X - 1) * H = X * (Real.exp e * (1 + u) - 1) := by rw [hH]; field_simp
  have hH0 : 0 ≤ H := by rw [hH]; exact div_nonneg (mul_nonneg hX0.le (by nlinarith)) hX1.le
  have g2 : E - 1 ≤ (X - 1) * (1 + H) := by linarith
  have hcosh : 1 - Real.exp (-e) * (1 - u) ≤ Real.exp e * (1 + u) - 1 := by
    have q : 2 ≤ Real.exp e + Real.exp (-e) := by
      have : Real.exp (-e) ≤ 1 := by nlinarith
      nlinarith
    have : Real.exp (-e) ≤ Real.exp e := Real.exp_le_exp.2 (by linarith)
    nlinarith
  have g1 : (X - 1) * (1 - H) ≤ E - 1 := by
    have := mul_le_mul_of_nonneg_left hcosh hX0.le
    linarith
  have g0 : 0 < E - 1 := lt_of_lt_of_le (mul_pos hX1 (by linarith)) g1
  have hBm : (big ^ 4)⁻¹ ≤ big⁻¹ / 4 := by
    have e : (big ^ 4)⁻¹ = big⁻¹ * (big ^ 3)⁻¹ := by rw [← mul_inv]; congr 1; ring
    have h3 : 1024 ≤ big ^ 3 := le_trans hB.le (le_self_pow₀ (by linarith) (by norm_num))
    have : (big ^ 3)⁻¹ ≤ 1 / 4 := by rw [inv_eq_one_div]; exact one_div_le_one_div_of_le (by norm_num) (by linarith)
    rw [e]; nlinarith
  have g3 : big⁻¹ / 2 ≤ E - 1 := by nlinarith
  obtain ⟨d4, hd4, e4⟩ := h.rnd (E - 1) (by rw [abs_of_pos g0]; linarith) (by rw [abs_of_pos g0]; linarith)
  have a4 := abs_le.1 hd4
  set D := (E - 1) * (1 + d4) with hD
  have hD0 : 0 < D := mul_pos g0 (by linarith)
  have hDl : big⁻¹ / 4 ≤ D := by rw [hD]; nlinarith
  have hDb : D ≤ big ^ 4 := by rw [hD]; nlinarith
  have hr1 : (big ^ 4)⁻¹ ≤ |1 / D| := by
    rw [abs_of_pos (by positivity), ← one_div]; exact one_div_le_one_div_of_le hD0 hDb
  have hr2 : |1 / D| ≤ big ^ 4 := by
    rw [abs_of_pos (by positivity), one_div]
    exact inv_le_of_inv_le₀ (by linarith) (by linarith)
  obtain ⟨d5, hd5, e5⟩ := h.rnd (1 / D) hr1 hr2
  have a5 := abs_le.1 hd5
  have l1 : (X - 1) * ((1 - H) * (1 - u)) ≤ D := by
    rw [← mul_assoc]; exact mul_le_mul g1 (by linarith) (by linarith) g0.le
  have l2 : D ≤ (X - 1) * ((1 + H) * (1 + u)) := by
    rw [← mul_assoc]; exact mul_le_mul g2 (by linarith) (by linarith) (mul_nonneg hX1.le (by linarith))
  have p1 : 0 < (1 - H) * (1 - u) := mul_pos (by linarith) (by linarith)
  have p2 : 0 < (1 + H) * (1 + u) := mul_pos (by linarith) (by linarith)
  refine ⟨1 / D * (1 + d5), ?_, ?_, ?_⟩
  · have e4' : r.rnd (E - 1) = (D : EReal) := e4
    simp only [subInv, EReal.toReal_coe, EReal.coe_ne_top, EReal.coe_ne_bot, if_false, e4']
    have : (D : EReal) ≠ 0 := by exact_mod_cast hD0.ne'
    simp only [this, EReal.coe_ne_top, if_false]
    exact e5
  · have : 1 / ((X - 1) * ((1 + H) * (1 + u))) ≤ 1 / D := one_div_le_one_div_of_le hD0 l2
    calc (X - 1)⁻¹ * ((1 - u) / ((1 + H) * (1 + u))) = 1 / ((X - 1) * ((1 + H) * (1 + u))) * (1 - u) := by
          rw [one_div, mul_inv, div_eq_mul_inv]; ring
      _ ≤ _ := mul_le_mul this (by linarith) (by linarith) (by positivity)
  · have : 1 / D ≤ 1 / ((X - 1) * ((1 - H) * (1 - u))) := one_div_le_one_div_of_le (by positivity) l1
    calc 1 / D * (1 + d5) ≤ 1 / ((X - 1) * ((1 - H) * (1 - u))) * (1 + u) := mul_le_mul this (by linarith) (by linarith) (by positivity)
      _ = _ := by rw [one_div, mul_inv, div_eq_mul_inv]; ring

theorem exp_le_two {t : ℝ} (h0 : 0 ≤ t) (h : t ≤ 1 / 2) : Real.exp t ≤ 1 + 2 * t := by
  have h1 := Real.one_sub_le_exp_neg t
  have h2 : Real.exp (-t) * Real.exp t = 1 := by rw [← Real.exp_add]; simp
  have h3 := Real.exp_pos t
  have h4 : (1 - t) * Real.exp t ≤ 1 := by nlinarith
  have h5 : 1 ≤ (1 - t) * (1 + 2 * t) := by nlinarith
  by_contra hc
  have := mul_lt_mul_of_pos_left (not_le.1 hc) (by linarith : 0 < 1 - t)
  linarith

theorem fermiFactor_le {u x : ℝ} (h0 : 0 < u) (h1 : u ≤ 1 / 2 ^ 20) (hx : |x| ≤ 400) : fermiFactor u x ≤ 1 + (5 * |x| + 4) * u := by
  unfold fermiFactor
  have hx0 := abs_nonneg x
  have hu : (0 : ℝ) < 1 - u := by norm_num at h1; linarith
  have hK0 : 0 ≤ (1 + u) ^ 2 - 1 := by nlinarith
  have hK : (1 + u) ^ 2 - 1 ≤ 2.01 * u := by norm_num at h1 ⊢; nlinarith
  have ht : ((1 + u) ^ 2 - 1) * |x| ≤ 2.01 * u * |x| := mul_le_mul_of_nonneg_right hK hx0
  have ht2 : u * |x| ≤ 400 / 2 ^ 20 := by
    have := mul_le_mul h1 hx hx0 (by norm_num)
    linarith
  have he := exp_le_two (mul_nonneg hK0 hx0) (by norm_num at ht2; linarith)
  have he' : Real.exp (((1 + u) ^ 2 - 1) * |x|) ≤ 1 + 4.02 * (u * |x|) := by linarith
  have hq : (1 + u) / (1 - u) ^ 2 ≤ 1 + 3.01 * u := by
    rw [div_le_iff₀ (by positivity)]
    norm_num at h1 ⊢; nlinarith
  have hxu : 0 ≤ u * |x| := by positivity
  calc _ ≤ (1 + 3.01 * u) * (1 + 4.02 * (u * |x|)) := mul_le_mul hq he' (Real.exp_pos _).le (by linarith)
    _ ≤ 1 + (5 * |x| + 4) * u := by norm_num at h1 ht2 ⊢; nlinarith

theorem boseLoss_le {u x : ℝ} (h0 : 0 < u) (h1 : u ≤ 1 / 2 ^ 20) (hx0 : 0 < x) (hx : x ≤ 400) :
    0 ≤ boseLoss u x ∧ boseLoss u x ≤ (5 * x + 6 + 1 / x) * u := by
  unfold boseLoss
  have hK0 : 0 ≤ (1 + u) ^ 2 - 1 := by nlinarith
  have hK : (1 + u) ^ 2 - 1 ≤ 2.01 * u := by norm_num at h1 ⊢; nlinarith
  have ht : ((1 + u) ^ 2 - 1) * x ≤ 2.01 * u * x := mul_le_mul_of_nonneg_right hK hx0.le
  have ht2 : u * x ≤ 400 / 2 ^ 20 := by
    have := mul_le_mul h1 hx hx0.le (by norm_num)
    linarith
  have he := exp_le_two (mul_nonneg hK0 hx0.le) (by norm_num at ht2; linarith)
  have hX : x ≤ Real.exp x - 1 := by linarith [Real.add_one_le_exp x]
  have hX0 : 0 < Real.exp x - 1 := by linarith
  have h5 : 1 ≤ Real.exp (((1 + u) ^ 2 - 1) * x) := Real.one_le_exp (mul_nonneg hK0 hx0.le)
  have h6 : Real.exp (((1 + u) ^ 2 - 1) * x) * (1 + u) - 1 ≤ 5 * (u * x) + u := by
    have : Real.exp (((1 + u) ^ 2 - 1) * x) * (1 + u) ≤ (1 + 4.02 * (u * x)) * (1 + u) :=
      mul_le_mul_of_nonneg_right (by linarith) (by linarith)
    have hxu : 0 ≤ u * x := by positivity
    norm_num at h1 this; nlinarith
  have h6' : 0 ≤ Real.exp (((1 + u) ^ 2 - 1) * x) * (1 + u) - 1 := by nlinarith
  have h7 : Real.exp x / (Real.exp x - 1) ≤ 1 + 1 / x := by
    have : Real.exp x / (Real.exp x - 1) = 1 + 1 / (Real.exp x - 1) := by field_simp; ring
    rw [this]
    have := one_div_le_one_div_of_le hx0 hX
    linarith
  constructor
  · exact div_nonneg (mul_nonneg (Real.exp_pos _).le h6') hX0.le
  · rw [mul_div_right_comm]
    calc _ ≤ (1 + 1 / x) * (5 * (u * x) + u) := mul_le_mul h7 h6 h6' (by positivity)
      _ = (5 * x + 6 + 1 / x) * u := by field_simp; ring

end Qcd
