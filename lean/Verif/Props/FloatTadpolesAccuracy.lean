import Verif.Props.FloatTadpoles
import Verif.Props.Accuracy
import Verif.Lemmas.FloatDensity
import Mathlib.Analysis.Real.Pi.Bounds

/-!
# Accuracy of the integrands of the tadpole diagrams
-/

namespace Qcd
open Spec Fl FTD

namespace tadpoles

/-- Relative error in units of `10^-15`, and the size. -/
structure Acc (a : Fl binary64) (x n : ℝ) (k : ℕ) : Prop where
  rel : Rel a x (n / 10 ^ 15)
  n0 : 0 ≤ n
  lo : (10 ^ k)⁻¹ ≤ |x|
  hi : |x| ≤ 10 ^ k

namespace Acc
variable {a b : Fl binary64} {x y n m : ℝ} {k l : ℕ}

theorem mul (ha : Acc a x n k) (hb : Acc b y m l) (hn : n ≤ 10 ^ 7) (hm : m ≤ 10 ^ 7) (hk : k + l ≤ 250) : Acc (a * b) (x * y) (n + m + 2) (k + l) := by
  obtain ⟨⟨v, hv, h1⟩, n0, lo, hi⟩ := ha
  obtain ⟨⟨w, hw, h2⟩, m0, lo', hi'⟩ := hb
  have L : (10 ^ (k + l))⁻¹ ≤ |x * y| := by
    rw [abs_mul, pow_add, mul_inv]; exact mul_le_mul lo lo' (by positivity) (abs_nonneg _)
  have H : |x * y| ≤ 10 ^ (k + l) := by
    rw [abs_mul, pow_add]; exact mul_le_mul hi hi' (abs_nonneg _) (by positivity)
  refine ⟨?_, by linarith, L, H⟩
  have e : (n + m + 2) / 10 ^ 15 = (n + m + 1) / 10 ^ 15 + 1 / 10 ^ 15 := by ring
  rw [e]
  refine Rel.of_round (value_mul hv hw) (mid_of L H hk) (by positivity) ?_ ?_
  · rw [div_le_iff₀ (by norm_num)]; norm_num at hn hm ⊢; linarith
  rw [show v * w - x * y = (v - x) * (w - y) + x * (w - y) + (v - x) * y by ring]
  have t1 : |(v - x) * (w - y)| ≤ n / 10 ^ 15 * |x| * (m / 10 ^ 15 * |y|) := by
    rw [abs_mul]; exact mul_le_mul h1 h2 (abs_nonneg _) (by positivity)
  have t2 : |x * (w - y)| ≤ |x| * (m / 10 ^ 15 * |y|) := by rw [abs_mul]; gcongr
  have t3 : |(v - x) * y| ≤ n / 10 ^ 15 * |x| * |y| := by rw [abs_mul]; gcongr
  have t := abs_add_three ((v - x) * (w - y)) (x * (w - y)) ((v - x) * y)
  have q : n * m ≤ 10 ^ 15 := (mul_le_mul hn hm m0 (by positivity)).trans (by norm_num)
  rw [abs_mul x y]
  have p : 0 ≤ |x| * |y| := by positivity
  have t4 : n / 10 ^ 15 * |x| * (m / 10 ^ 15 * |y|) ≤ 1 / 10 ^ 15 * (|x| * |y|) := by
    have : n / 10 ^ 15 * |x| * (m / 10 ^ 15 * |y|) = (n * m) / 10 ^ 30 * (|x| * |y|) := by ring
    rw [this]
    refine mul_le_mul_of_nonneg_right ?_ p
    rw [div_le_div_iff₀ (by norm_num) (by norm_num)]
    norm_num at q ⊢; linarith
  have : (n + m + 1) / 10 ^ 15 * (|x| * |y|) = 1 / 10 ^ 15 * (|x| * |y|) + |x| * (m / 10 ^ 15 * |y|) + n / 10 ^ 15 * |x| * |y| := by ring
  rw [this]
  linarith

theorem div (ha : Acc a x n k) (hb : Acc b y m l) (hn : n ≤ 10 ^ 7) (hm : m ≤ 100) (hk : k + l ≤ 250) : Acc (a / b) (x / y) (n + m + 2) (k + l) := by
  obtain ⟨⟨v, hv, h1⟩, n0, lo, hi⟩ := ha
  obtain ⟨⟨w, hw, h2⟩, m0, lo', hi'⟩ := hb
  have y0 : 0 < |y| := lt_of_lt_of_le (by positivity) lo'
  have L : (10 ^ (k + l))⁻¹ ≤ |x / y| := by
    rw [abs_div, div_eq_mul_inv, pow_add, mul_inv]
    exact mul_le_mul lo (inv_anti₀ y0 hi') (by positivity) (abs_nonneg _)
  have H : |x / y| ≤ 10 ^ (k + l) := by
    rw [abs_div, div_eq_mul_inv, pow_add]
    refine mul_le_mul hi ?_ (by positivity) (by positivity)
    rw [← inv_inv ((10 : ℝ) ^ l)]
    exact inv_anti₀ (by positivity) lo'
  have f0 : m / 10 ^ 15 ≤ 1 / 10 ^ 13 := by rw [div_le_div_iff₀ (by norm_num) (by norm_num)]; norm_num; linarith
  have hw1 : (1 - 1 / 10 ^ 13) * |y| ≤ |w| := by
    have h := abs_add_le w (y - w)
    rw [add_sub_cancel, abs_sub_comm y w] at h
    have := mul_le_mul_of_nonneg_right f0 y0.le
    linarith
  have w0 : 0 < |w| := lt_of_lt_of_le (by positivity) hw1
  have yn : y ≠ 0 := abs_pos.1 y0
  have wn : w ≠ 0 := abs_pos.1 w0
  refine ⟨?_, by linarith, L, H⟩
  have e : (n + m + 2) / 10 ^ 15 = (n + m + 1) / 10 ^ 15 + 1 / 10 ^ 15 := by ring
  rw [e]
  refine Rel.of_round (value_div hv hw wn) (mid_of L H hk) (by positivity) ?_ ?_
  · rw [div_le_iff₀ (by norm_num)]; norm_num at hn hm ⊢; linarith
  have e2 : v / w - x / y = ((v - x) * y - x * (w - y)) / (w * y) := by field_simp; ring
  rw [e2, abs_div, abs_mul w y, div_le_iff₀ (by positivity), abs_div x y]
  have t3 : |(v - x) * y| ≤ n / 10 ^ 15 * |x| * |y| := by rw [abs_mul]; gcongr
  have t2 : |x * (w - y)| ≤ |x| * (m / 10 ^ 15 * |y|) := by rw [abs_mul]; gcongr
  have t := abs_sub ((v - x) * y) (x * (w - y))
  have e3 : (n + m + 1) / 10 ^ 15 * (|x| / |y|) * (|w| * |y|) = (n + m + 1) / 10 ^ 15 * |x| * |w| := by field_simp
  rw [e3]
  have c : 0 ≤ (n + m + 1) / 10 ^ 15 * |x| := by positivity
  have t5 := mul_le_mul_of_nonneg_left hw1 c
  refine le_trans ?_ t5
  have p : 0 ≤ |x| * |y| := by positivity
  have key : (n + m) / 10 ^ 15 ≤ (n + m + 1) / 10 ^ 15 * (1 - 1 / 10 ^ 13) := by
    norm_num at hn ⊢; linarith
  have := mul_le_mul_of_nonneg_right key p
  have e4 : (n + m + 1) / 10 ^ 15 * |x| * ((1 - 1 / 10 ^ 13) * |y|) = (n + m + 1) / 10 ^ 15 * (1 - 1 / 10 ^ 13) * (|x| * |y|) := by ring
  have e5 : (n + m) / 10 ^ 15 * (|x| * |y|) = n / 10 ^ 15 * |x| * |y| + |x| * (m / 10 ^ 15 * |y|) := by ring
  rw [e4]
  linarith

theorem neg (ha : Acc a x n k) : Acc (-a) (-x) n k := by
  obtain ⟨⟨v, hv, h1⟩, n0, lo, hi⟩ := ha
  refine ⟨⟨-v, value_neg hv, ?_⟩, n0, by rwa [abs_neg], by rwa [abs_neg]⟩
  rw [abs_neg, show -v - -x = -(v - x) by ring, abs_neg]
  exact h1

theorem const {c : ℝ} (h1 : 1 ≤ c) (h2 : c ≤ 8) : Acc (ofR c : Fl binary64) c 1 1 := by
  have hc : |c| = c := abs_of_pos (by linarith)
  have L : ((10 : ℝ) ^ 1)⁻¹ ≤ |c| := by rw [hc]; exact le_trans (by norm_num) h1
  have H : |c| ≤ (10 : ℝ) ^ 1 := by rw [hc]; exact h2.trans (by norm_num)
  refine ⟨?_, by norm_num, L, H⟩
  have := Rel.of_round (a := (ofR c : Fl binary64)) (v := c) (x := c) (e := 0) (value_round _ _) (mid_of L H (by norm_num)) le_rfl (by norm_num) (by simp)
  simpa using this

theorem pi2 : Acc (F.PI2 : Fl binary64) PI2 4 1 := by
  have h1 := Real.pi_gt_three
  have h2 := Real.pi_lt_d2
  have e : PI2 = Real.pi ^ 2 := by unfold PI2; ring
  rw [e]
  refine ⟨rel_pi2, by norm_num, ?_, ?_⟩
  · rw [abs_of_pos (by positivity)]; norm_num; nlinarith
  · rw [abs_of_pos (by positivity)]; norm_num at h2 ⊢; nlinarith

theorem num' {q : Fl binary64} {x : ℝ} (hq : Is q x) (lo : (10 ^ k)⁻¹ ≤ x) (hi : x ≤ 10 ^ k) : Acc q x 0 k := by
  have x0 : 0 < x := lt_of_lt_of_le (by positivity) lo
  exact ⟨⟨x, hq, by simp⟩, le_rfl, by rwa [abs_of_pos x0], by rwa [abs_of_pos x0]⟩

theorem le (ha : Acc a x n k) (h : n ≤ m) : |x| * (n / 10 ^ 15) ≤ |x| * (m / 10 ^ 15) := by gcongr

theorem near (ha : Acc a x n k) (h : n ≤ m) : Near a x (m / 10 ^ 15 * |x|) := by
  obtain ⟨v, hv, h1⟩ := ha.rel
  exact ⟨v, hv, h1.trans (by gcongr)⟩

end Acc

theorem bose0_real (e b : ℝ) : bose_distribution_zero_chempot e b = (Real.exp (e * b) - 1)⁻¹ := by
  simp [bose_distribution_zero_chempot, statistic_distribution_exponential_zero_chempot]

/-- The Bose distribution at a number of the type. -/
theorem bose_rel {en beta : Fl binary64} {e b : ℝ} (he : Is en e) (hE : Binary64 e) (hb : Is beta b) (hb0 : 0 < b) (hd : Moderate e)
    (hmin : 1 / 2 ^ 20 ≤ e * b) (hmax : e * b ≤ 400) :
    Rel (F.bose_distribution_zero_chempot en beta) (bose_distribution_zero_chempot e b) ((e * b + 1 / (e * b) + 2) / 10 ^ 15) := by
  have hp : 0 < e * b := lt_of_lt_of_le (by norm_num) hmin
  have e0 : 0 < e := (mul_pos_iff_of_pos_right hb0).1 hp
  have h0e : (0 : EReal) ≤ (e : EReal) := by exact_mod_cast e0.le
  obtain ⟨v, hv, h⟩ := C112_bose_f64 en beta (num (0 : ℝ)) e b 0 he hb (value_num _) hb0 (by simpa using hd) (by simpa using hmin) (by simpa using hmax)
  have hv' : IsE (F.bose_distribution_zero_chempot en beta) v := by
    have h1 := bose_value (r := binary64) (mu := num ((0 : ℝ) : EReal)) he hb (value_num _) hb0 (by simpa using h0e)
    have h2 := bose_zero_value he hb hb0 h0e
    have h3 : subE binary64 (e : EReal) 0 = (e : EReal) := by
      simp [subE]; exact binary64_fixed hE
    rw [h3] at h1
    rw [IsE, h2, ← h1]
    exact hv
  rw [bose_real, sub_zero, ← bose0_real] at h
  refine ⟨v, hv', h.trans ?_⟩
  have n0 : 0 ≤ bose_distribution_zero_chempot e b := by
    rw [bose0_real]
    have := Real.add_one_le_exp (e * b)
    exact inv_nonneg.2 (by linarith)
  rw [abs_of_nonneg n0]
  refine mul_le_mul_of_nonneg_right ?_ n0
  have i0 : 0 < 1 / (e * b) := by positivity
  rw [show (2 : ℝ) / (e * b) = 2 * (1 / (e * b)) by ring]
  norm_num
  norm_num at i0
  linarith

/-- The size of the Bose distribution. -/
theorem bose_size {e b : ℝ} (hmin : 1 / 10 ^ 6 ≤ e * b) (hmax : e * b ≤ 400) :
    ((10 : ℝ) ^ 180)⁻¹ ≤ |bose_distribution_zero_chempot e b| ∧ |bose_distribution_zero_chempot e b| ≤ 10 ^ 180 := by
  have h1 := Real.add_one_le_exp (e * b)
  have p : 0 < Real.exp (e * b) - 1 := by norm_num at hmin; linarith
  rw [bose0_real, abs_of_pos (inv_pos.2 p)]
  constructor
  · refine inv_anti₀ p ?_
    have a : Real.exp (e * b) ≤ Real.exp 400 := Real.exp_le_exp.2 hmax
    have c : Real.exp 400 = Real.exp 1 ^ 400 := by rw [← Real.exp_nat_mul]; norm_num
    have d : Real.exp 1 ^ 400 ≤ 2.8 ^ 400 := pow_le_pow_left₀ (Real.exp_pos _).le (by have := Real.exp_one_lt_d9; norm_num at this ⊢; linarith) 400
    have f : (2.8 : ℝ) ^ 400 = (2.8 ^ 20) ^ 20 := by rw [← pow_mul]
    have g : ((2.8 : ℝ) ^ 20) ^ 20 ≤ (10 ^ 9) ^ 20 := pow_le_pow_left₀ (by positivity) (by norm_num) 20
    have k : ((10 : ℝ) ^ 9) ^ 20 = 10 ^ 180 := by rw [← pow_mul]
    exact (sub_le_self _ zero_le_one).trans (a.trans (c.le.trans (d.trans (f.le.trans (g.trans k.le)))))
  · have : (Real.exp (e * b) - 1)⁻¹ ≤ (1 / 10 ^ 6)⁻¹ := inv_anti₀ (by norm_num) (by linarith)
    refine this.trans ?_
    rw [one_div, inv_inv]
    exact pow_le_pow_right₀ (by norm_num) (by norm_num)

/-- The Bose distribution at a slightly different energy. -/
theorem bose_shift {e v b d : ℝ} (hp : 0 < e * b) (hmax : e * b ≤ 400) (d0 : 0 ≤ d) (hd : d ≤ 1 / 10 ^ 10) (h : |v - e| ≤ d * e) (hb : 0 < b) :
    |bose_distribution_zero_chempot v b - bose_distribution_zero_chempot e b| ≤ 3 * d * (1 + e * b) * bose_distribution_zero_chempot e b := by
  have h1 := Real.add_one_le_exp (e * b)
  have e0 : 0 < e := (mul_pos_iff_of_pos_right hb).1 hp
  have hv : 0 < v := by have := (abs_le.1 h).1; nlinarith
  have h2 := Real.add_one_le_exp (v * b)
  have pv : 0 < v * b := by positivity
  have X0 : 0 < Real.exp (e * b) - 1 := by linarith
  have Y0 : 0 < Real.exp (v * b) - 1 := by linarith
  have hh : |(v - e) * b| ≤ d * (e * b) := by rw [abs_mul, abs_of_pos hb]; nlinarith
  have hh1 : d * (e * b) ≤ 1 / 10 ^ 7 := by
    calc d * (e * b) ≤ 1 / 10 ^ 10 * 400 := by gcongr
      _ ≤ _ := by norm_num
  have hs := Real.abs_exp_sub_one_le (x := (v - e) * b) (by linarith)
  set H := Real.exp ((v - e) * b) - 1 with hH
  have eY : Real.exp (v * b) = Real.exp (e * b) * (H + 1) := by rw [hH, sub_add_cancel, ← Real.exp_add]; congr 1; ring
  set X := Real.exp (e * b) with hX
  have hX1 : e * b * X ≤ (1 + e * b) * (X - 1) := by nlinarith
  have Hb : |H| ≤ 2 * (d * (e * b)) := by linarith
  -- difference of the denominators
  have D : |X * H| ≤ 2 * d * (1 + e * b) * (X - 1) := by
    rw [abs_mul, abs_of_pos (by linarith : 0 < X)]
    calc X * |H| ≤ X * (2 * (d * (e * b))) := by gcongr
      _ = 2 * d * (e * b * X) := by ring
      _ ≤ 2 * d * ((1 + e * b) * (X - 1)) := by gcongr
      _ = _ := by ring
  have small : 2 * d * (1 + e * b) ≤ 1 / 10 ^ 6 := by
    calc 2 * d * (1 + e * b) ≤ 2 * (1 / 10 ^ 10) * (1 + 400) := by gcongr
      _ ≤ _ := by norm_num
  have eY' : Real.exp (v * b) - 1 = (X - 1) + X * H := by rw [eY]; ring
  have Yl : (X - 1) * (2 / 3) ≤ Real.exp (v * b) - 1 := by
    rw [eY']
    have := (abs_le.1 D).1
    have := mul_le_mul_of_nonneg_right small X0.le
    norm_num at this
    linarith
  rw [bose0_real, bose0_real, ← hX]
  have e3 : (Real.exp (v * b) - 1)⁻¹ - (X - 1)⁻¹ = -(X * H) / ((Real.exp (v * b) - 1) * (X - 1)) := by
    have := Y0.ne'
    have := X0.ne'
    rw [eY'] at *
    field_simp
    ring
  rw [e3, abs_div, abs_neg, abs_of_pos (mul_pos Y0 X0), div_le_iff₀ (mul_pos Y0 X0)]
  have c0 : 0 ≤ 3 * d * (1 + e * b) := by positivity
  calc |X * H| ≤ 2 * d * (1 + e * b) * (X - 1) := D
    _ = 3 * d * (1 + e * b) * ((X - 1) * (2 / 3)) := by ring
    _ ≤ 3 * d * (1 + e * b) * (Real.exp (v * b) - 1) := by gcongr
    _ = 3 * d * (1 + e * b) * (X - 1)⁻¹ * ((Real.exp (v * b) - 1) * (X - 1)) := by field_simp

theorem moderate_of {x : ℝ} (h1 : 1 / 10 ^ 20 ≤ |x|) (h2 : |x| ≤ 10 ^ 20) : Moderate x := by
  right
  have h : (10 : ℝ) ^ 20 ≤ big := by
    calc (10 : ℝ) ^ 20 ≤ 2 ^ 80 := by norm_num
      _ ≤ big := pow_le_pow_right₀ (by norm_num) (by norm_num)
  refine ⟨le_trans ?_ h1, h2.trans h⟩
  rw [one_div]
  exact inv_anti₀ (by norm_num) h

theorem acc_bose {q beta : Fl binary64} {x b : ℝ} (hq : Is q x) (hQ : Binary64 x) (hb : Is beta b) (h1 : 1 / 10 ^ 10 ≤ x) (h2 : x ≤ 10 ^ 10)
    (h0 : 0 < b) (h3 : 1 / 10 ^ 5 ≤ x * b) (h4 : x * b ≤ 390) :
    Acc (F.bose_distribution_zero_chempot q beta) (bose_distribution_zero_chempot x b) (x * b + 1 / (x * b) + 2) 180 := by
  have p : 0 < x * b := lt_of_lt_of_le (by norm_num) h3
  have x0 : 0 < x := lt_of_lt_of_le (by norm_num) h1
  obtain ⟨s1, s2⟩ := bose_size (e := x) (b := b) (le_trans (by norm_num) h3) (h4.trans (by norm_num))
  refine ⟨bose_rel hq hQ hb h0 (moderate_of ?_ ?_) (le_trans (by norm_num) h3) (h4.trans (by norm_num)), by positivity, s1, s2⟩
  · rw [abs_of_pos x0]; exact le_trans (by norm_num) h1
  · rw [abs_of_pos x0]; exact h2.trans (by norm_num)

theorem units {t : ℝ} (h3 : 1 / 10 ^ 5 ≤ t) (h4 : t ≤ 390) : 0 ≤ t + 1 / t ∧ t + 1 / t ≤ 10 ^ 6 := by
  have p : 0 < t := lt_of_lt_of_le (by norm_num) h3
  have : 1 / t ≤ 10 ^ 5 := by rw [div_le_iff₀ p]; norm_num at h3 ⊢; linarith
  refine ⟨by positivity, ?_⟩
  norm_num at this ⊢
  linarith

/-- The energy and the Bose distribution at the computed energy. -/
theorem acc_energy {q m beta : Fl binary64} {x y b : ℝ} (hq : Is q x) (hm : Is m y) (hb : Is beta b) (h1 : 1 / 10 ^ 10 ≤ x) (h2 : x ≤ 10 ^ 10)
    (hy : y = 0 ∨ 1 / 10 ^ 10 ≤ |y|) (hy' : |y| ≤ 10 ^ 10) (h0 : 0 < b) (h3 : 1 / 10 ^ 5 ≤ energy x y * b) (h4 : energy x y * b ≤ 390) :
    Acc (F.energy q m) (energy x y) 1 11 ∧
    Acc (F.bose_distribution_zero_chempot (F.energy q m) beta) (bose_distribution_zero_chempot (energy x y) b)
      (3 * (energy x y * b) + 1 / (energy x y * b) + 5) 180 := by
  have x0 : 0 < x := lt_of_lt_of_le (by norm_num) h1
  have mx : Moderate x := moderate_of (by rw [abs_of_pos x0]; exact le_trans (by norm_num) h1) (by rw [abs_of_pos x0]; exact h2.trans (by norm_num))
  have my : Moderate y := by
    rcases hy with h | h
    · exact Or.inl h
    · exact moderate_of (le_trans (by norm_num) h) (hy'.trans (by norm_num))
  obtain ⟨v, hv, hd⟩ := C112_energy_f64 q m x y hq hm mx my
  have eE : energy x y = Real.sqrt (y * y + x * x) := by simp [energy, energy_squared]
  have E1 : x ≤ energy x y := by
    rw [eE]; refine Real.le_sqrt_of_sq_le ?_; nlinarith [mul_self_nonneg y]
  have E2 : energy x y ≤ 10 ^ 11 := by
    rw [eE]
    refine Real.sqrt_le_iff.2 ⟨by positivity, ?_⟩
    have a : y * y ≤ 10 ^ 10 * 10 ^ 10 := by rw [← abs_mul_abs_self]; exact mul_le_mul hy' hy' (abs_nonneg _) (by positivity)
    have c : x * x ≤ 10 ^ 10 * 10 ^ 10 := mul_le_mul h2 h2 x0.le (by positivity)
    norm_num at a c ⊢
    linarith
  obtain ⟨-, s, hs⟩ := pos_energy (k := 100) ⟨x, hq, le_trans (by norm_num) h1, h2.trans (by norm_num)⟩ hm (hy'.trans (by norm_num)) (by norm_num)
  have hV : Binary64 v := by
    rw [IsE] at hs
    rw [Is, hs] at hv
    exact round64_binary64 (Option.some.inj hv)
  set E := energy x y with hE
  have E0 : 0 < E := x0.trans_le E1
  have p : 0 < E * b := by positivity
  have u : 3 * (2 : ℝ) ^ (-53 : ℤ) ≤ 4 / 10 ^ 16 := by norm_num
  have hd' : |v - E| ≤ 4 / 10 ^ 16 * E := hd.trans (by gcongr)
  have vl := (abs_le.1 hd').1
  have vu := (abs_le.1 hd').2
  have tl : E * b * (1 - 4 / 10 ^ 16) ≤ v * b := by nlinarith
  have tu : v * b ≤ E * b * (1 + 4 / 10 ^ 16) := by nlinarith
  constructor
  · refine ⟨⟨v, hv, hd'.trans ?_⟩, by norm_num, ?_, ?_⟩
    · rw [abs_of_pos E0]; exact mul_le_mul_of_nonneg_right (by norm_num) E0.le
    · rw [abs_of_pos E0]; exact le_trans (by norm_num) (h1.trans E1)
    · rw [abs_of_pos E0]; exact E2
  · obtain ⟨s1, s2⟩ := bose_size (e := E) (b := b) (le_trans (by norm_num) h3) (h4.trans (by norm_num))
    refine ⟨?_, by positivity, s1, s2⟩
    have v0 : 0 < v := by norm_num at vl; linarith
    have q0 : 0 < v * b := by positivity
    have B := bose_rel hv hV hb h0 (moderate_of (by
        rw [abs_of_pos v0]
        have := h1.trans E1
        norm_num at this vl ⊢; linarith) (by
        rw [abs_of_pos v0]
        norm_num at E2 vu ⊢; linarith)) (by
        norm_num at h3 tl ⊢; linarith) (by norm_num at h4 tu ⊢; linarith)
    have S := bose_shift (d := 4 / 10 ^ 16) p (h4.trans (by norm_num)) (by norm_num) (by norm_num) hd' h0
    obtain ⟨w, hw, hB⟩ := B
    refine ⟨w, hw, ?_⟩
    have N0 : 0 < bose_distribution_zero_chempot E b := by
      rw [bose0_real]
      have := Real.add_one_le_exp (E * b)
      exact inv_pos.2 (by linarith)
    have V0 : 0 < bose_distribution_zero_chempot v b := by
      rw [bose0_real]
      have := Real.add_one_le_exp (v * b)
      exact inv_pos.2 (by linarith)
    rw [abs_of_pos V0] at hB
    rw [abs_of_pos N0]
    generalize bose_distribution_zero_chempot v b = V at *
    generalize bose_distribution_zero_chempot E b = N at *
    obtain ⟨c1, c2⟩ := units h3 h4
    have iv : 1 / (v * b) ≤ 1 / (E * b) * (1 + 1 / 10 ^ 15) := by
      rw [div_mul_eq_mul_div, one_mul, div_le_div_iff₀ q0 p]
      norm_num at tl ⊢
      linarith
    have ip : 0 < 1 / (E * b) := by positivity
    generalize E * b = t at *
    generalize v * b = t' at *
    generalize 1 / t = i at *
    generalize 1 / t' = i' at *
    have b1 : t' + i' + 2 ≤ t + i + 2 + 1 / 10 ^ 3 := by norm_num at tu iv c2 ⊢; linarith
    have r1 : 3 * (4 / 10 ^ 16) * (1 + t) ≤ 12 / 10 ^ 16 * 391 := by norm_num; linarith
    have V1 : V ≤ N * (1 + 1 / 10 ^ 12) := by
      have := (abs_le.1 S).2
      have := mul_le_mul_of_nonneg_right r1 N0.le
      norm_num at *
      linarith
    have f0 : 0 ≤ (t + i + 2 + 1 / 10 ^ 3) / 10 ^ 15 := by positivity
    have g : (t' + i' + 2) / 10 ^ 15 * V ≤ (t + i + 2 + 1 / 10 ^ 3) / 10 ^ 15 * (N * (1 + 1 / 10 ^ 12)) := by gcongr
    have fin : (t + i + 2 + 1 / 10 ^ 3) / 10 ^ 15 * (1 + 1 / 10 ^ 12) + 3 * (4 / 10 ^ 16) * (1 + t) ≤ (3 * t + i + 5) / 10 ^ 15 := by
      norm_num at c2 ⊢; linarith
    have tri := abs_sub_le w V N
    have := mul_le_mul_of_nonneg_right fin N0.le
    linarith

end tadpoles

open tadpoles

/-- **C128** (accuracy, zero mass): if the momentum is between `10^-10` and `10^10` and `q * beta` between `10^-5` and `390`, the computed
integrands of the massless tadpoles have a relative error of at most `(q * beta + 1 / (q * beta) + 22) * 10^-15`. -/
theorem C128_massless_accuracy (q beta : Fl binary64) (x b : ℝ) (hq : Is q x) (hQ : Binary64 x) (hb : Is beta b)
    (h1 : 1 / 10 ^ 10 ≤ x) (h2 : x ≤ 10 ^ 10) (h0 : 0 < b) (h3 : 1 / 10 ^ 5 ≤ x * b) (h4 : x * b ≤ 390) :
    let e := (x * b + 1 / (x * b) + 22) / 10 ^ 15
    Near (F.j_0_i q beta) (thermal.j_0_i x b) (e * |thermal.j_0_i x b|) ∧
    Near (F.j_0_l_i q beta) (thermal.j_0_l_i x b) (e * |thermal.j_0_l_i x b|) ∧
    Near (F.j_0_t_i q beta) (thermal.j_0_t_i x b) (e * |thermal.j_0_t_i x b|) ∧
    Near (F.d_j_0_i q beta) (thermal.d_j_0_i x b) (e * |thermal.d_j_0_i x b|) ∧
    Near (F.d_j_0_l_i q beta) (thermal.d_j_0_l_i x b) (e * |thermal.d_j_0_l_i x b|) ∧
    Near (F.d_j_0_t_i q beta) (thermal.d_j_0_t_i x b) (e * |thermal.d_j_0_t_i x b|) ∧
    Near (F.d2_j_0_t_i q beta) (thermal.d2_j_0_t_i x b) (e * |thermal.d2_j_0_t_i x b|) := by
  have B := acc_bose hq hQ hb h1 h2 h0 h3 h4
  obtain ⟨c1, c2⟩ := units h3 h4
  generalize x * b + 1 / (x * b) = n at *
  have Q : Acc q x 0 10 := Acc.num' hq (by rwa [← one_div]) h2
  have Q2 := Q.mul Q (by norm_num) (by norm_num) (by norm_num)
  have Q3 := Q2.mul Q (by norm_num) (by norm_num) (by norm_num)
  have c (k : ℝ) (n1 : 1 ≤ k) (n2 : k ≤ 8) := (Acc.const n1 n2).mul Acc.pi2 (by norm_num) (by norm_num) (by norm_num)
  have e (k : ℝ) (n1 : 1 ≤ k) (n2 : k ≤ 8) := (Q.mul (Acc.const n1 n2) (by norm_num) (by norm_num) (by norm_num)).mul Acc.pi2 (by norm_num) (by norm_num) (by norm_num)
  intro e'
  refine ⟨?_, ?_, ?_, ?_, ?_, ?_, ?_⟩
  · exact ((B.mul Q (by norm_num at *; linarith) (by norm_num) (by norm_num)).div (c 2 (by norm_num) (by norm_num)) (by norm_num at *; linarith) (by norm_num) (by norm_num)).near (by linarith)
  · exact ((B.neg.mul Q3 (by norm_num at *; linarith) (by norm_num) (by norm_num)).div (c 2 (by norm_num) (by norm_num)) (by norm_num at *; linarith) (by norm_num) (by norm_num)).near (by linarith)
  · exact ((B.mul Q3 (by norm_num at *; linarith) (by norm_num) (by norm_num)).div (c 6 (by norm_num) (by norm_num)) (by norm_num at *; linarith) (by norm_num) (by norm_num)).near (by linarith)
  · exact (B.neg.div (e 4 (by norm_num) (by norm_num)) (by norm_num at *; linarith) (by norm_num) (by norm_num)).near (by linarith)
  · exact ((Q.mul B (by norm_num) (by norm_num at *; linarith) (by norm_num)).div (c 4 (by norm_num) (by norm_num)) (by norm_num at *; linarith) (by norm_num) (by norm_num)).near (by linarith)
  · exact ((B.neg.mul Q (by norm_num at *; linarith) (by norm_num) (by norm_num)).div (c 4 (by norm_num) (by norm_num)) (by norm_num at *; linarith) (by norm_num) (by norm_num)).near (by linarith)
  · exact (B.div (e 8 (by norm_num) (by norm_num)) (by norm_num at *; linarith) (by norm_num) (by norm_num)).near (by linarith)

/-- **C128** (accuracy, massive particles): the same with the energy in place of the momentum and an error of at most
`(3 * E * beta + 1 / (E * beta) + 27) * 10^-15`, which includes the error of the energy. -/
theorem C128_massive_accuracy (q m beta : Fl binary64) (x y b : ℝ) (hq : Is q x) (hm : Is m y) (hb : Is beta b)
    (h1 : 1 / 10 ^ 10 ≤ x) (h2 : x ≤ 10 ^ 10) (hy : y = 0 ∨ 1 / 10 ^ 10 ≤ |y|) (hy' : |y| ≤ 10 ^ 10) (h0 : 0 < b)
    (h3 : 1 / 10 ^ 5 ≤ energy x y * b) (h4 : energy x y * b ≤ 390) :
    let e := (3 * (energy x y * b) + 1 / (energy x y * b) + 27) / 10 ^ 15
    Near (F.j_m_i q m beta) (thermal.j_m_i x y b) (e * |thermal.j_m_i x y b|) ∧
    Near (F.j_m_l_i q m beta) (thermal.j_m_l_i x y b) (e * |thermal.j_m_l_i x y b|) ∧
    Near (F.j_m_t_i q m beta) (thermal.j_m_t_i x y b) (e * |thermal.j_m_t_i x y b|) ∧
    Near (F.d_j_m_i q m beta) (thermal.d_j_m_i x y b) (e * |thermal.d_j_m_i x y b|) ∧
    Near (F.d_j_m_l_i q m beta) (thermal.d_j_m_l_i x y b) (e * |thermal.d_j_m_l_i x y b|) ∧
    Near (F.d_j_m_t_i q m beta) (thermal.d_j_m_t_i x y b) (e * |thermal.d_j_m_t_i x y b|) ∧
    Near (F.d2_j_m_t_i q m beta) (thermal.d2_j_m_t_i x y b) (e * |thermal.d2_j_m_t_i x y b|) := by
  obtain ⟨E, B⟩ := acc_energy hq hm hb h1 h2 hy hy' h0 h3 h4
  obtain ⟨c1, c2⟩ := units h3 h4
  have c3 : 3 * (energy x y * b) + 1 / (energy x y * b) ≤ 2 * 10 ^ 6 := by norm_num at *; linarith
  have c4 : 0 ≤ 3 * (energy x y * b) + 1 / (energy x y * b) := by
    have : 0 < energy x y * b := lt_of_lt_of_le (by norm_num) h3
    positivity
  generalize 3 * (energy x y * b) + 1 / (energy x y * b) = n at *
  have Q : Acc q x 0 10 := Acc.num' hq (by rwa [← one_div]) h2
  have Q2 := Q.mul Q (by norm_num) (by norm_num) (by norm_num)
  have Q4 := Q2.mul Q2 (by norm_num) (by norm_num) (by norm_num)
  have c (k : ℝ) (n1 : 1 ≤ k) (n2 : k ≤ 8) := (Acc.const n1 n2).mul Acc.pi2 (by norm_num) (by norm_num) (by norm_num)
  have e (k : ℝ) (n1 : 1 ≤ k) (n2 : k ≤ 8) := (E.mul (Acc.const n1 n2) (by norm_num) (by norm_num) (by norm_num)).mul Acc.pi2 (by norm_num) (by norm_num) (by norm_num)
  intro e'
  refine ⟨?_, ?_, ?_, ?_, ?_, ?_, ?_⟩
  · exact ((B.mul Q2 (by norm_num at *; linarith) (by norm_num) (by norm_num)).div (e 2 (by norm_num) (by norm_num)) (by norm_num at *; linarith) (by norm_num) (by norm_num)).near (by linarith)
  · exact (((B.neg.mul Q2 (by norm_num at *; linarith) (by norm_num) (by norm_num)).mul E (by norm_num at *; linarith) (by norm_num) (by norm_num)).div (c 2 (by norm_num) (by norm_num)) (by norm_num at *; linarith) (by norm_num) (by norm_num)).near (by linarith)
  · exact ((B.mul Q4 (by norm_num at *; linarith) (by norm_num) (by norm_num)).div (e 6 (by norm_num) (by norm_num)) (by norm_num at *; linarith) (by norm_num) (by norm_num)).near (by linarith)
  · exact (B.neg.div (e 4 (by norm_num) (by norm_num)) (by norm_num at *; linarith) (by norm_num) (by norm_num)).near (by linarith)
  · exact ((E.mul B (by norm_num) (by norm_num at *; linarith) (by norm_num)).div (c 4 (by norm_num) (by norm_num)) (by norm_num at *; linarith) (by norm_num) (by norm_num)).near (by linarith)
  · exact ((B.neg.mul Q2 (by norm_num at *; linarith) (by norm_num) (by norm_num)).div (e 4 (by norm_num) (by norm_num)) (by norm_num at *; linarith) (by norm_num) (by norm_num)).near (by linarith)
  · exact (B.div (e 8 (by norm_num) (by norm_num)) (by norm_num at *; linarith) (by norm_num) (by norm_num)).near (by linarith)

/-! ### Cases -/

/-- Momentum 1 at inverse temperature 2: `j_0_i` has a relative error below `25 * 10^-15`. -/
example : Near (F.j_0_i (Fl.num (1 : ℝ)) (Fl.num (2 : ℝ))) (thermal.j_0_i 1 2) (25 / 10 ^ 15 * |thermal.j_0_i 1 2|) := by
  obtain ⟨⟨v, h1, h2⟩, -⟩ := C128_massless_accuracy (Fl.num (1 : ℝ)) (Fl.num (2 : ℝ)) 1 2 (value_num _) ⟨1, 0, by norm_num, by norm_num, by norm_num, by norm_num⟩ (value_num _)
    (by norm_num) (by norm_num) (by norm_num) (by norm_num) (by norm_num)
  exact ⟨v, h1, h2.trans (mul_le_mul_of_nonneg_right (by norm_num) (abs_nonneg _))⟩

/-- Momentum 3 and mass 4 at inverse temperature 2: `j_m_i` has a relative error below `58 * 10^-15`. -/
example : Near (F.j_m_i (Fl.num (3 : ℝ)) (Fl.num (4 : ℝ)) (Fl.num (2 : ℝ))) (thermal.j_m_i 3 (4 : ℝ) 2) (58 / 10 ^ 15 * |thermal.j_m_i 3 (4 : ℝ) 2|) := by
  have e : energy (3 : ℝ) (4 : ℝ) = 5 := by
    have : energy (3 : ℝ) (4 : ℝ) = Real.sqrt (4 * 4 + 3 * 3) := by simp [energy, energy_squared]
    rw [this, show (4 * 4 + 3 * 3 : ℝ) = 5 ^ 2 by norm_num]
    exact Real.sqrt_sq (by norm_num)
  obtain ⟨⟨v, h1, h2⟩, -⟩ := C128_massive_accuracy (Fl.num (3 : ℝ)) (Fl.num (4 : ℝ)) (Fl.num (2 : ℝ)) 3 4 2 (value_num _) (value_num _) (value_num _)
    (by norm_num) (by norm_num) (Or.inr (by norm_num)) (by norm_num) (by norm_num) (by rw [e]; norm_num) (by rw [e]; norm_num)
  refine ⟨v, h1, h2.trans (mul_le_mul_of_nonneg_right ?_ (abs_nonneg _))⟩
  rw [e]; norm_num

end Qcd
