import Verif.Model.FloatDensity
import Verif.Spec.FloatDensity
import Verif.Lemmas.FloatRoot
import Mathlib.Analysis.SpecialFunctions.Pow.Real
import Mathlib.Analysis.Complex.ExponentialBounds

/-! # Lemmas on the charge density in floating-point arithmetic -/

namespace Qcd
open Fl Spec

namespace Rel
variable {a b : Fl binary64} {x y e f : ℝ}

theorem mono (h : Rel a x e) (he : e ≤ f) : Rel a x f := by
  obtain ⟨v, hv, h1⟩ := h
  exact ⟨v, hv, h1.trans (by gcongr)⟩

theorem exact (h : Is a x) : Rel a x 0 := ⟨x, h, by simp⟩

theorem ofReal {x : ℝ} (hx : Mid |x|) : Rel (ofR x : Fl binary64) x (1 / 10 ^ 15) := by
  have := of_round (a := (ofR x : Fl binary64)) (x := x) (e := 0) (v := x) (value_round _ _) hx le_rfl (by norm_num) (by simp)
  rwa [zero_add] at this

theorem mulSharp (h : Rel a x e) (hb : Rel b y f) (hx : Mid |x * y|) (he : 0 ≤ e) (hf : 0 ≤ f) (hs : e + f + e * f ≤ 1 / 2) :
    Rel (a * b) (x * y) (e + f + e * f + 1 / 10 ^ 15) := by
  obtain ⟨v, hv, h1⟩ := h
  obtain ⟨w, hw, h2⟩ := hb
  refine of_round (value_mul hv hw) hx (by positivity) hs ?_
  rw [show v * w - x * y = (v - x) * (w - y) + x * (w - y) + (v - x) * y by ring]
  have t1 : |(v - x) * (w - y)| ≤ e * |x| * (f * |y|) := by
    rw [abs_mul]; exact mul_le_mul h1 h2 (abs_nonneg _) (by positivity)
  have t2 : |x * (w - y)| ≤ |x| * (f * |y|) := by rw [abs_mul]; gcongr
  have t3 : |(v - x) * y| ≤ e * |x| * |y| := by rw [abs_mul]; gcongr
  have := abs_add_three ((v - x) * (w - y)) (x * (w - y)) ((v - x) * y)
  rw [abs_mul x y]
  nlinarith

theorem is_div {a b : Fl binary64} {v c : ℝ} (ha : Is a v) (hb : Is b c) (hc : c ≠ 0) : IsE (a / b) (binary64.rnd (v / c)) := by
  change (Fl.div a b).value = _
  unfold Fl.div
  simp only [show a.value = some (v : EReal) from ha, show b.value = some (c : EReal) from hb, val_of ha, val_of hb, EReal.toReal_coe]
  simp [value_round, hc]

theorem divSharp (h : Rel a x e) (hb : Rel b y f) (hx : Mid |x / y|) (hy : y ≠ 0) (he : 0 ≤ e) (hf : 0 ≤ f) (hf' : f ≤ 1 / 8) (hs : e ≤ 1 / 8) :
    Rel (a / b) (x / y) ((e + f) / (1 - f) + 1 / 10 ^ 15) := by
  obtain ⟨v, hv, h1⟩ := h
  obtain ⟨w, hw, h2⟩ := hb
  have hyp : 0 < |y| := abs_pos.2 hy
  have hwl : |y| * (1 - f) ≤ |w| := by
    have := abs_sub_abs_le_abs_sub y w
    rw [abs_sub_comm y w] at this
    linarith
  have h1f : 0 < 1 - f := by linarith
  have hwp : 0 < |w| := lt_of_lt_of_le (by positivity) hwl
  have hwn : w ≠ 0 := abs_pos.1 hwp
  refine of_round (is_div hv hw hwn) hx (by positivity) ?_ ?_
  · rw [div_le_iff₀ h1f]; linarith
  · have ee : v / w - x / y = ((v - x) * y - x * (w - y)) / (w * y) := by field_simp; ring
    rw [ee, abs_div, abs_mul, abs_div, div_mul_div_comm, div_le_div_iff₀ (by positivity) (by positivity)]
    have t1 : |(v - x) * y - x * (w - y)| ≤ (e + f) * |x| * |y| := by
      refine (abs_sub _ _).trans ?_
      rw [abs_mul, abs_mul]
      have := mul_le_mul_of_nonneg_right h1 (abs_nonneg y)
      have := mul_le_mul_of_nonneg_left h2 (abs_nonneg x)
      nlinarith
    calc |(v - x) * y - x * (w - y)| * ((1 - f) * |y|) ≤ (e + f) * |x| * |y| * ((1 - f) * |y|) := by gcongr
      _ = (e + f) * |x| * |y| * (|y| * (1 - f)) := by ring
      _ ≤ (e + f) * |x| * |y| * |w| := by gcongr
      _ = (e + f) * |x| * (|w| * |y|) := by ring

theorem sqrt_close {w x : ℝ} (hx : 0 < x) (hw : 0 ≤ w) (h : |w - x| ≤ e * |x|) : |Real.sqrt w - Real.sqrt x| ≤ e * |Real.sqrt x| := by
  have h1 : 0 < Real.sqrt x := Real.sqrt_pos.2 hx
  have h2 : 0 ≤ Real.sqrt w := Real.sqrt_nonneg w
  have e1 : (Real.sqrt w - Real.sqrt x) * (Real.sqrt w + Real.sqrt x) = w - x := by
    have := Real.mul_self_sqrt hw; have := Real.mul_self_sqrt hx.le; nlinarith
  rw [abs_of_pos h1]
  rw [abs_of_pos hx, ← e1, abs_mul, abs_of_pos (by linarith : 0 < Real.sqrt w + Real.sqrt x)] at h
  have h3 := Real.mul_self_sqrt hx.le
  have h4 : |Real.sqrt w - Real.sqrt x| * Real.sqrt x ≤ e * Real.sqrt x * Real.sqrt x := by
    have h5 : 0 ≤ |Real.sqrt w - Real.sqrt x| * Real.sqrt w := by positivity
    rw [mul_assoc, h3]
    linarith [mul_add |Real.sqrt w - Real.sqrt x| (Real.sqrt w) (Real.sqrt x)]
  exact le_of_mul_le_mul_right h4 h1

theorem sqrtE_real {w : ℝ} : sqrtE binary64 (w : EReal) = binary64.rnd (Real.sqrt w) := by simp [sqrtE]

/-- The square root of a number with a relative error. -/
theorem of_sqrt {w : ℝ} (ha : IsE a (sqrtE binary64 (w : EReal))) (hx : 0 < x) (hw : 0 ≤ w) (hM : Mid |Real.sqrt x|) (he : 0 ≤ e) (he' : e ≤ 1 / 2)
    (h : |w - x| ≤ e * |x|) : Rel a (Real.sqrt x) (e + 1 / 10 ^ 15) := by
  rw [sqrtE_real] at ha
  exact of_round ha hM he he' (sqrt_close hx hw h)

end Rel

theorem mid_range {B : ℝ} {k : ℕ} (hk : k ≤ 250) (lo : 1 / 10 ^ k ≤ B) (hi : B ≤ 10 ^ k) : Mid B := mid_of (by rwa [← one_div]) hi hk

theorem rel_pi2 : Rel (F.PI2 : Fl binary64) (Real.pi ^ 2) (4 / 10 ^ 15) := by
  have hp := Real.two_le_pi
  have hp' := Real.pi_le_four
  have h1 : Rel (ofR Real.pi : Fl binary64) Real.pi (1 / 10 ^ 15) :=
    Rel.ofReal (mid_range (by norm_num : 1 ≤ 250) (by rw [abs_of_pos (by linarith)]; norm_num; linarith) (by rw [abs_of_pos (by linarith)]; norm_num; linarith))
  have h2 := h1.mulSharp h1 (mid_range (by norm_num : 2 ≤ 250) (by rw [abs_of_pos (by positivity)]; norm_num; nlinarith) (by rw [abs_of_pos (by positivity)]; norm_num; nlinarith))
    (by norm_num) (by norm_num) (by norm_num)
  rw [pow_two]
  exact h2.mono (by norm_num)

theorem is_three : Is (ofR 3 : Fl binary64) 3 := is_ofR ⟨3, 0, by norm_num, by norm_num, by norm_num, by norm_num⟩
theorem is_two : Is (ofR 2 : Fl binary64) 2 := is_ofR ⟨2, 0, by norm_num, by norm_num, by norm_num, by norm_num⟩
theorem is_one : Is (ofR 1 : Fl binary64) 1 := is_ofR ⟨1, 0, by norm_num, by norm_num, by norm_num, by norm_num⟩
theorem is_neg_one : Is (ofR (-1) : Fl binary64) (-1) := is_ofR ⟨-1, 0, by norm_num, by norm_num, by norm_num, by norm_num⟩
theorem is_zero : Is (ofR 0 : Fl binary64) 0 := is_ofR ⟨0, 0, by norm_num, by norm_num, by norm_num, by norm_num⟩

theorem pi_sq_bounds : 4 ≤ Real.pi ^ 2 ∧ Real.pi ^ 2 ≤ 16 := by
  have hp := Real.two_le_pi
  have hp' := Real.pi_le_four
  constructor <;> nlinarith

theorem rel_3pi2 : Rel (ofR 3 * F.PI2 : Fl binary64) (3 * Real.pi ^ 2) (5 / 10 ^ 15) := by
  obtain ⟨h1, h2⟩ := pi_sq_bounds
  have h := (Rel.exact is_three).mulSharp rel_pi2 (mid_range (by norm_num : 2 ≤ 250) (by rw [abs_of_pos (by positivity)]; norm_num; linarith)
    (by rw [abs_of_pos (by positivity)]; norm_num; linarith)) le_rfl (by norm_num) (by norm_num)
  exact h.mono (by norm_num)

theorem rel_nc {nc : ℕ} (h0 : 0 < nc) (h1 : nc ≤ 10 ^ 6) : Rel (ofR (nc : ℝ) : Fl binary64) nc (1 / 10 ^ 15) := by
  have h0' : (1 : ℝ) ≤ nc := by exact_mod_cast h0
  have h1' : (nc : ℝ) ≤ 10 ^ 6 := by exact_mod_cast h1
  exact Rel.ofReal (mid_range (by norm_num : 6 ≤ 250) (by rw [abs_of_pos (by linarith)]; exact le_trans (by norm_num) h0') (by rw [abs_of_pos (by linarith)]; exact h1'))

/-- The computed Fermi momentum. -/
theorem rel_fermi_momentum {m mu : Fl binary64} {y x : ℝ} (hm : Is m y) (hmu : Is mu x) (h : |y| < |x|) (hx : Middle x) (hL : thresholdLoss y x ≤ 10 ^ 12) :
    Rel (F.fermi_momentum m mu) (Real.sqrt (x ^ 2 - y ^ 2)) (9 / (4 * 10 ^ 15) * thresholdLoss y x) := by
  have hx2l : 1 / 10 ^ 120 ≤ x ^ 2 := by
    rw [← sq_abs, show (1 : ℝ) / 10 ^ 120 = (1 / 10 ^ 60) ^ 2 by norm_num]; gcongr; exact hx.1
  have hx2h : x ^ 2 ≤ 10 ^ 120 := by
    rw [← sq_abs, show (10 : ℝ) ^ 120 = (10 ^ 60) ^ 2 by norm_num]; gcongr; exact hx.2
  have hy2 : y ^ 2 < x ^ 2 := sq_lt_sq.2 h
  set L := thresholdLoss y x with hLd
  set Δ := x ^ 2 - y ^ 2 with hΔ
  have hΔp : 0 < Δ := by linarith
  have hxL : x ^ 2 = L * Δ := by rw [hLd, thresholdLoss, ← hΔ]; field_simp
  have hΔx : Δ ≤ x ^ 2 := by nlinarith [sq_nonneg y]
  have hL1 : 1 ≤ L := by rw [hLd, thresholdLoss, ← hΔ, le_div_iff₀ hΔp]; linarith
  have hΔl : 1 / 10 ^ 132 ≤ Δ := by
    have : x ^ 2 ≤ 10 ^ 12 * Δ := by rw [hxL]; gcongr
    have e : (1 : ℝ) / 10 ^ 120 = 10 ^ 12 * (1 / 10 ^ 132) := by norm_num
    rw [e] at hx2l
    exact le_of_mul_le_mul_left (hx2l.trans this) (by positivity)
  have hom : (10 : ℝ) ^ 120 ≤ om := by
    unfold om
    calc (10 : ℝ) ^ 120 ≤ (2 ^ 4) ^ 120 := by gcongr; norm_num
      _ = 2 ^ 480 := by rw [← pow_mul]
      _ ≤ 2 ^ 1000 := pow_le_pow_right₀ (by norm_num) (by norm_num)
  obtain ⟨z, hz, hz1⟩ := round64_run (x := y * y) (by rw [abs_of_nonneg (mul_self_nonneg y), ← pow_two]; linarith)
  have hu := uu_pos
  have htiny : ((2 : ℝ) ^ 1000)⁻¹ ≤ x ^ 2 := by
    refine le_trans ?_ hx2l
    rw [one_div]
    gcongr
    calc (10 : ℝ) ^ 120 ≤ (2 ^ 4) ^ 120 := by gcongr; norm_num
      _ = 2 ^ 480 := by rw [← pow_mul]
      _ ≤ 2 ^ 1000 := pow_le_pow_right₀ (by norm_num) (by norm_num)
  have hzx : |z - y ^ 2| ≤ 2 * uu * x ^ 2 := by
    rw [abs_of_nonneg (mul_self_nonneg y), ← pow_two] at hz1
    nlinarith
  have hu4 : 2 * uu ≤ 1 / (4 * 10 ^ 15) := by unfold uu; norm_num
  have he : |(x * x - z) - Δ| ≤ 1 / (4 * 10 ^ 15) * L * |Δ| := by
    rw [show x * x - z - Δ = -(z - y ^ 2) by rw [hΔ]; ring, abs_neg, abs_of_pos hΔp, mul_assoc, ← hxL]
    exact hzx.trans (by gcongr)
  have hMΔ : Mid |Δ| := by
    rw [abs_of_pos hΔp]
    exact mid_range (by norm_num : 132 ≤ 250) hΔl (hΔx.trans (hx2h.trans (by norm_num)))
  have hes : 1 / (4 * 10 ^ 15) * L ≤ 1 / 4000 := by
    calc 1 / (4 * 10 ^ 15) * L ≤ 1 / (4 * 10 ^ 15) * 10 ^ 12 := by gcongr
      _ = 1 / 4000 := by norm_num
  obtain ⟨w, hw, hw1⟩ := Rel.of_round (a := num (binary64.rnd (x * x - z))) (v := x * x - z) rfl hMΔ (by positivity) (hes.trans (by norm_num)) he
  have hwv : binary64.rnd (x * x - z) = (w : EReal) := Option.some.inj hw
  have hw0 : 0 ≤ w := by
    have h15 : (1 : ℝ) / 10 ^ 15 ≤ 1 / 2 := by norm_num
    have : 1 / (4 * 10 ^ 15) * L + 1 / 10 ^ 15 ≤ 1 := by linarith
    rw [abs_of_pos hΔp] at hw1
    have := (abs_le.1 hw1).1
    nlinarith
  have hv := (fermi_momentum_cases hm hmu hz).2 (by rw [hwv]; exact_mod_cast hw0)
  rw [hwv] at hv
  have hMs : Mid |Real.sqrt Δ| := by
    rw [abs_of_pos (Real.sqrt_pos.2 hΔp)]
    refine mid_range (by norm_num : 66 ≤ 250) ?_ ?_
    · rw [show (1 : ℝ) / 10 ^ 66 = Real.sqrt (1 / 10 ^ 132) by
        rw [show (1 : ℝ) / 10 ^ 132 = (1 / 10 ^ 66) ^ 2 by norm_num, Real.sqrt_sq (by positivity)]]
      exact Real.sqrt_le_sqrt hΔl
    · rw [show (10 : ℝ) ^ 66 = Real.sqrt (10 ^ 132) by
        rw [show (10 : ℝ) ^ 132 = (10 ^ 66) ^ 2 by norm_num, Real.sqrt_sq (by positivity)]]
      exact Real.sqrt_le_sqrt (hΔx.trans (hx2h.trans (by norm_num)))
  refine (Rel.of_sqrt hv hΔp hw0 hMs (by positivity) ?_ hw1).mono ?_
  · have : (1 : ℝ) / 10 ^ 15 ≤ 1 / 10 := by norm_num
    linarith
  · nlinarith

/-! ## Signs -/

theorem round53_neg (x : ℝ) : round53 (-x) = -round53 x := by
  unfold round53
  rcases lt_trichotomy x 0 with h | h | h
  · rw [if_neg (by linarith), if_pos h, neg_neg]
  · subst h; simp [roundPos_zero]
  · rw [if_pos (by linarith), if_neg (by linarith), neg_neg]

theorem round64_neg (x : ℝ) : round64 (-x) = -round64 x := by
  have h1 := one_lt_overflow
  unfold round64
  rw [round53_neg]
  by_cases a : overflow ≤ round53 x
  · rw [if_neg (by linarith), if_pos (by linarith), if_pos a]; rfl
  · rw [if_neg a]
    by_cases b : round53 x ≤ -overflow
    · rw [if_pos (by linarith), if_pos b]; rfl
    · rw [if_neg (by linarith), if_neg (by linarith), if_neg b]; simp

namespace Fl
variable {a b c : Fl binary64}

theorem round_neg (s : Bool) (x : ℝ) : round binary64 (!s) (-x) = neg (round binary64 s x) := by
  have h : binary64.rnd (-x) = -binary64.rnd x := round64_neg x
  unfold round
  simp only [h, EReal.neg_eq_zero_iff]
  by_cases h0 : binary64.rnd x = 0
  · cases s <;> simp [h0, neg]
  · simp [h0, neg]

theorem neg_value_none : (neg a).value = none ↔ a.value = none := by
  cases a with
  | nan => simp [neg]
  | nz => simp [neg]
  | num x => by_cases h : x = 0 <;> simp [neg, h]

theorem neg_val : (neg a).val = -a.val := by
  cases a with
  | nan => simp [neg, val]
  | nz => simp [neg, val]
  | num x => by_cases h : x = 0 <;> simp [neg, val, h]

theorem toReal_neg_eq (x : EReal) : (-x).toReal = -x.toReal := by
  induction x <;> simp [← EReal.coe_neg]

theorem neg_isNeg (h : a.value ≠ none) : (neg a).isNeg = !a.isNeg := by
  cases a with
  | nan => simp at h
  | nz => simp [neg, isNeg]
  | num x =>
    rcases lt_trichotomy x 0 with h | h | h
    · have : 0 < -x := by rwa [← EReal.neg_lt_neg_iff, neg_neg, neg_zero]
      simp [neg, isNeg, h.ne, h, h.le, this.le]
    · simp [neg, isNeg, h]
    · have : -x < 0 := by rwa [← EReal.neg_lt_neg_iff, neg_neg, neg_zero]
      simp [neg, isNeg, h.ne', this, h.le]

theorem neg_sign (s : Bool) {p q : EReal} (hp : p ≠ 0) (hq : q = -p) : (num (if s then q else p) : Fl binary64) = neg (num (if s then p else q)) := by
  subst hq
  cases s <;> simp [neg, hp]

theorem neg_mul' : neg a * b = neg (a * b) := by
  change mul (neg a) b = neg (mul a b)
  by_cases h : a.value = none ∨ b.value = none
  · have h' : (neg a).value = none ∨ b.value = none := by rwa [neg_value_none]
    simp only [mul, if_pos h, if_pos h']; rfl
  · have h' : ¬ ((neg a).value = none ∨ b.value = none) := by rwa [neg_value_none]
    have ha : a.value ≠ none := fun hc => h (.inl hc)
    have e0 : ((neg a).val = 0) = (a.val = 0) := by rw [neg_val, EReal.neg_eq_zero_iff]
    have e1 : ((neg a).val = ⊤) = (a.val = ⊥) := by rw [neg_val, EReal.neg_eq_top_iff]
    have e2 : ((neg a).val = ⊥) = (a.val = ⊤) := by rw [neg_val, EReal.neg_eq_bot_iff]
    simp only [mul, if_neg h, if_neg h', e0, e1, e2]
    by_cases k : (a.val = 0 ∧ (b.val = ⊤ ∨ b.val = ⊥)) ∨ (b.val = 0 ∧ (a.val = ⊤ ∨ a.val = ⊥))
    · have k' : (a.val = 0 ∧ (b.val = ⊤ ∨ b.val = ⊥)) ∨ (b.val = 0 ∧ (a.val = ⊥ ∨ a.val = ⊤)) := k.imp_right (And.imp_right Or.symm)
      rw [if_pos k, if_pos k']; rfl
    · have k' : ¬ ((a.val = 0 ∧ (b.val = ⊤ ∨ b.val = ⊥)) ∨ (b.val = 0 ∧ (a.val = ⊥ ∨ a.val = ⊤))) := fun hk => k (hk.imp_right (And.imp_right Or.symm))
      rw [if_neg k, if_neg k']
      by_cases l : a.val = ⊤ ∨ a.val = ⊥ ∨ b.val = ⊤ ∨ b.val = ⊥
      · have l' : a.val = ⊥ ∨ a.val = ⊤ ∨ b.val = ⊤ ∨ b.val = ⊥ := or_left_comm.1 l
        rw [if_pos l, if_pos l', neg_isNeg ha]
        cases a.isNeg <;> cases b.isNeg <;> simp [neg]
      · have l' : ¬ (a.val = ⊥ ∨ a.val = ⊤ ∨ b.val = ⊤ ∨ b.val = ⊥) := fun hl => l (or_left_comm.1 hl)
        rw [if_neg l, if_neg l', neg_isNeg ha, neg_val, toReal_neg_eq, neg_mul, ← round_neg]
        congr 1
        cases a.isNeg <;> cases b.isNeg <;> rfl

theorem mul_comm' : a * b = b * a := by
  change mul a b = mul b a
  unfold mul
  simp only [mul_comm b.val.toReal, eq_comm (a := b.isNeg), bne_comm (a := b.isNeg)]
  congr 1
  · simp only [or_comm]
  · congr 1
    · simp only [or_comm]
    · congr 1
      simp only [eq_iff_iff]; tauto

theorem mul_neg' : a * neg b = neg (a * b) := by rw [mul_comm', neg_mul', mul_comm']

theorem neg_div' : neg a / b = neg (a / b) := by
  change div (neg a) b = neg (div a b)
  by_cases h : a.value = none ∨ b.value = none
  · have h' : (neg a).value = none ∨ b.value = none := by rwa [neg_value_none]
    simp only [div, if_pos h, if_pos h']; rfl
  · have h' : ¬ ((neg a).value = none ∨ b.value = none) := by rwa [neg_value_none]
    have ha : a.value ≠ none := fun hc => h (.inl hc)
    have e0 : ((neg a).val = 0) = (a.val = 0) := by rw [neg_val, EReal.neg_eq_zero_iff]
    have e1 : ((neg a).val = ⊤) = (a.val = ⊥) := by rw [neg_val, EReal.neg_eq_top_iff]
    have e2 : ((neg a).val = ⊥) = (a.val = ⊤) := by rw [neg_val, EReal.neg_eq_bot_iff]
    simp only [div, if_neg h, if_neg h', e0, e1, e2]
    by_cases k : (a.val = 0 ∧ b.val = 0) ∨ ((a.val = ⊤ ∨ a.val = ⊥) ∧ (b.val = ⊤ ∨ b.val = ⊥))
    · have k' : (a.val = 0 ∧ b.val = 0) ∨ ((a.val = ⊥ ∨ a.val = ⊤) ∧ (b.val = ⊤ ∨ b.val = ⊥)) := k.imp_right (And.imp_left Or.symm)
      rw [if_pos k, if_pos k']; rfl
    · have k' : ¬ ((a.val = 0 ∧ b.val = 0) ∨ ((a.val = ⊥ ∨ a.val = ⊤) ∧ (b.val = ⊤ ∨ b.val = ⊥))) := fun hk => k (hk.imp_right (And.imp_left Or.symm))
      rw [if_neg k, if_neg k']
      by_cases l : b.val = 0 ∨ a.val = ⊤ ∨ a.val = ⊥
      · have l' : b.val = 0 ∨ a.val = ⊥ ∨ a.val = ⊤ := l.imp_right Or.symm
        rw [if_pos l, if_pos l', neg_isNeg ha]
        cases a.isNeg <;> cases b.isNeg <;> simp [neg]
      · have l' : ¬ (b.val = 0 ∨ a.val = ⊥ ∨ a.val = ⊤) := fun hl => l (hl.imp_right Or.symm)
        rw [if_neg l, if_neg l', neg_isNeg ha]
        by_cases g : b.val = ⊤ ∨ b.val = ⊥
        · rw [if_pos g, if_pos g]
          cases a.isNeg <;> cases b.isNeg <;> simp [neg]
        · rw [if_neg g, if_neg g, neg_val, toReal_neg_eq, neg_div, ← round_neg]
          congr 1
          cases a.isNeg <;> cases b.isNeg <;> rfl

theorem mulAdd_neg_neg : mulAdd (neg a) (neg a) c = mulAdd a a c := by
  by_cases h : a.value = none
  · have h' := neg_value_none.2 h
    simp [mulAdd, h, h']
  · have e0 : ((neg a).val = 0) = (a.val = 0) := by rw [neg_val, EReal.neg_eq_zero_iff]
    have e1 : ((neg a).val = ⊤) = (a.val = ⊥) := by rw [neg_val, EReal.neg_eq_top_iff]
    have e2 : ((neg a).val = ⊥) = (a.val = ⊤) := by rw [neg_val, EReal.neg_eq_bot_iff]
    have e3 : ((neg a).value = none) = (a.value = none) := by rw [neg_value_none]
    simp only [mulAdd, e0, e1, e2, e3, neg_isNeg h, neg_val, toReal_neg_eq, neg_mul_neg]
    by_cases k : a.val = ⊤ <;> by_cases l : a.val = ⊥ <;> simp [k, l]

theorem value_mulAdd {x y z : ℝ} (ha : Is a x) (hb : Is b y) (hc : Is c z) : IsE (mulAdd a b c) (binary64.rnd (x * y + z)) := by
  change (mulAdd a b c).value = _
  unfold mulAdd
  simp only [show a.value = some (x : EReal) from ha, show b.value = some (y : EReal) from hb, show c.value = some (z : EReal) from hc,
    val_of ha, val_of hb, val_of hc, EReal.toReal_coe]
  simp [value_round]

theorem neg_absF : absF (neg a) = absF a := by
  cases a with
  | nan => rfl
  | nz => simp [neg, absF]
  | num x =>
    rcases lt_trichotomy x 0 with h | h | h
    · have : 0 < -x := by rwa [← EReal.neg_lt_neg_iff, neg_neg, neg_zero]
      simp [neg, absF, h.ne, h, h.le, not_lt.2 h.le, this.le]
    · simp [neg, absF, h]
    · have : -x < 0 := by rwa [← EReal.neg_lt_neg_iff, neg_neg, neg_zero]
      simp [neg, absF, h.ne', this, h.le]

end Fl

end Qcd
