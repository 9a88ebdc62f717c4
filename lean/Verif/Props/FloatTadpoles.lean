import Verif.Model.FloatTadpoles
import Verif.Model.Thermal
import Verif.Spec.FloatTadpoles
import Verif.Lemmas.FloatThermalDensity
import Verif.Props.Floats
import Verif.Props.FloatRoot

/-!
# The integrands of the tadpole diagrams in floating-point arithmetic

Signs, dependence on the temperature, and the values for small momenta.
-/

namespace Qcd
open Spec Fl FTD

namespace tadpoles

/-- The number is positive and neither too large nor too small. -/
def Pos (a : Fl binary64) (k : ℕ) : Prop := ∃ x : ℝ, Is a x ∧ (2 : ℝ) ^ (-(k : ℤ)) ≤ x ∧ x ≤ 2 ^ (k : ℤ)

theorem Pos.round {a : Fl binary64} {x : ℝ} {k : ℕ} (ha : IsE a (round64 x)) (h1 : (2 : ℝ) ^ (-(k : ℤ)) ≤ x) (h2 : x ≤ 2 ^ (k : ℤ)) (hk : k ≤ 900) : Pos a k := by
  obtain ⟨y, e, l, u⟩ := between (b_pow (n := -(k : ℤ)) (by omega) (by omega)) (b_pow (n := (k : ℤ)) (by omega) (by omega)) h1 h2
  exact ⟨y, by rw [e] at ha; exact ha, l, u⟩

theorem Pos.mono {a : Fl binary64} {k l : ℕ} (h : Pos a k) (hl : k ≤ l) : Pos a l := by
  obtain ⟨x, h0, h1, h2⟩ := h
  exact ⟨x, h0, (zpow_le_zpow_right₀ (by norm_num) (by omega)).trans h1, h2.trans (zpow_le_zpow_right₀ (by norm_num) (by omega))⟩

theorem Pos.mul {a b : Fl binary64} {k l : ℕ} (ha : Pos a k) (hb : Pos b l) (h : k + l ≤ 900) : Pos (a * b) (k + l) := by
  obtain ⟨x, x0, x1, x2⟩ := ha
  obtain ⟨y, y0, y1, y2⟩ := hb
  have p : (0 : ℝ) < 2 ^ (-(k : ℤ)) := by positivity
  have p' : (0 : ℝ) < 2 ^ (-(l : ℤ)) := by positivity
  refine Pos.round (x := x * y) (value_mul x0 y0) ?_ ?_ h
  · rw [show (-((k + l : ℕ) : ℤ)) = -(k : ℤ) + -(l : ℤ) by push_cast; ring, zpow_add₀ (by norm_num)]
    exact mul_le_mul x1 y1 p'.le (p.le.trans x1)
  · rw [show ((k + l : ℕ) : ℤ) = (k : ℤ) + (l : ℤ) by push_cast; ring, zpow_add₀ (by norm_num)]
    exact mul_le_mul x2 y2 (p'.le.trans y1) (by positivity)

theorem Pos.const {c : ℝ} (h1 : 1 ≤ c) (h2 : c ≤ 8) : Pos (ofR c : Fl binary64) 3 :=
  Pos.round (x := c) (value_round _ _) (le_trans (by norm_num) h1) (h2.trans (by norm_num)) (by norm_num)

theorem pos_pi2 : Pos (F.PI2 : Fl binary64) 5 := by
  obtain ⟨P, h, h1, h2⟩ := pi2
  exact ⟨P, h, le_trans (by norm_num) h1, h2.trans (by norm_num)⟩

/-- The energy of a momentum and a mass of moderate size. -/
theorem pos_energy {q m : Fl binary64} {k : ℕ} (hq : Pos q k) {y : ℝ} (hm : Is m y) (hy : |y| ≤ 2 ^ (k : ℤ)) (hk : k ≤ 400) :
    Pos (F.energy q m) (k + 1) ∧ ∃ s : ℝ, IsE (F.energy q m) (round64 s) := by
  obtain ⟨x, x0, x1, x2⟩ := hq
  have p : (0 : ℝ) < 2 ^ (-(k : ℤ)) := by positivity
  have hx0 : 0 < x := p.trans_le x1
  have e2 (a : ℤ) : (2 : ℝ) ^ a * 2 ^ a = 2 ^ (2 * a) := by rw [← zpow_add₀ (by norm_num)]; congr 1; ring
  have Q1 : (2 : ℝ) ^ (2 * -(k : ℤ)) ≤ x * x := by rw [← e2]; exact mul_le_mul x1 x1 p.le hx0.le
  have Q2 : x * x ≤ 2 ^ (2 * (k : ℤ)) := by rw [← e2]; exact mul_le_mul x2 x2 hx0.le (by positivity)
  have M2 : y * y ≤ 2 ^ (2 * (k : ℤ)) := by rw [← e2, ← abs_mul_abs_self]; exact mul_le_mul hy hy (abs_nonneg _) (by positivity)
  obtain ⟨Q, eQ, q1, q2⟩ := between (b_pow (n := 2 * -(k : ℤ)) (by omega) (by omega)) (b_pow (n := 2 * (k : ℤ)) (by omega) (by omega)) Q1 Q2
  obtain ⟨M, eM, m1, m2⟩ := between b_zero (b_pow (n := 2 * (k : ℤ)) (by omega) (by omega)) (mul_self_nonneg y) M2
  have s : (2 : ℝ) ^ (2 * (k : ℤ)) + 2 ^ (2 * (k : ℤ)) ≤ 2 ^ (2 * (k : ℤ) + 1) := by rw [zpow_add₀ (by norm_num)]; norm_num; linarith
  obtain ⟨S, eS, s1, s2⟩ := between (b_pow (n := 2 * -(k : ℤ)) (by omega) (by omega)) (b_pow (n := 2 * (k : ℤ) + 1) (by omega) (by omega))
    (show (2 : ℝ) ^ (2 * -(k : ℤ)) ≤ M + Q by linarith) (show M + Q ≤ 2 ^ (2 * (k : ℤ) + 1) by linarith)
  have vQ : (mul q q).value = some (Q : EReal) := by rw [value_mul x0 x0]; exact congrArg some eQ
  have vM : (mul m m).value = some (M : EReal) := by rw [value_mul hm hm]; exact congrArg some eM
  have vS : (mul m m + mul q q).value = some (S : EReal) := by rw [add_def, value_add vM vQ]; exact congrArg some eS
  have S0 : 0 < S := lt_of_lt_of_le (by positivity) s1
  have vE : IsE (F.energy q m) (round64 (Real.sqrt S)) := by
    have e := energy_eq x0 hm
    rw [e]
    have w : addE binary64 (sqE binary64 y) (sqE binary64 x) = (S : EReal) := by
      have w1 : sqE binary64 (x : EReal) = (Q : EReal) := by simp only [sqE]; simp; exact eQ
      have w2 : sqE binary64 (y : EReal) = (M : EReal) := by simp only [sqE]; simp; exact eM
      rw [w1, w2]
      simp only [addE]
      simp; exact eS
    rw [w]
    simp [IsE, sqrtE]
    rfl
  refine ⟨Pos.round vE ?_ ?_ (by omega), _, vE⟩
  · refine Real.le_sqrt_of_sq_le (le_trans ?_ s1)
    rw [sq, e2]
    exact zpow_le_zpow_right₀ (by norm_num) (by push_cast; omega)
  · refine Real.sqrt_le_iff.2 ⟨by positivity, s2.trans ?_⟩
    rw [sq, e2]
    exact zpow_le_zpow_right₀ (by norm_num) (by push_cast; omega)

theorem mulE_zero {b : ℝ} : mulE binary64 0 b = 0 := by simp [mulE, binary64.zero]

/-- Quotient of a number that may be infinite. -/
noncomputable def divE (x : EReal) (b : ℝ) : EReal := open Classical in if x = ⊤ then ⊤ else if x = ⊥ then ⊥ else round64 (x.toReal / b)

theorem value_divE {a b : Fl binary64} {x : EReal} {y : ℝ} (ha : a.value = some x) (hb : b.value = some (y : EReal)) (hy : 0 < y) :
    (a / b).value = some (divE x y) := by
  induction x using EReal.rec with
  | coe x => rw [show (a / b).value = _ from value_div ha hb hy.ne']; simp [divE]; rfl
  | top =>
    have n1 := isNeg_pos hb (by exact_mod_cast hy)
    have n2 := isNeg_pos ha EReal.zero_lt_top
    change (div a b).value = _
    have hy' : (y : EReal) ≠ 0 := by exact_mod_cast hy.ne'
    simp [div, val_of ha, val_of hb, ha, hb, n1, n2, divE, hy.ne']
  | bot =>
    have n1 := isNeg_pos hb (by exact_mod_cast hy)
    have n2 := isNeg_neg ha EReal.bot_lt_zero
    change (div a b).value = _
    simp [div, val_of ha, val_of hb, ha, hb, n1, n2, divE, hy.ne']

theorem divE_mono {b : ℝ} (hb : 0 < b) : Monotone (fun x => divE x b) := by
  intro x y h
  induction y using EReal.rec with
  | bot => simp at h; subst h; exact le_refl _
  | top => simp [divE]
  | coe y =>
    induction x using EReal.rec with
    | bot => simp [divE]
    | top => simp at h
    | coe x =>
      simp only [divE]; simp
      exact binary64.mono (div_le_div_of_nonneg_right (by exact_mod_cast h) hb.le)

theorem divE_zero {b : ℝ} : divE 0 b = 0 := by simp [divE]; exact binary64.zero

theorem Pos.pos {a : Fl binary64} {k : ℕ} (h : Pos a k) : ∃ x : ℝ, a.value = some (x : EReal) ∧ 0 < x := by
  obtain ⟨x, x0, x1, -⟩ := h
  exact ⟨x, x0, lt_of_lt_of_le (by positivity) x1⟩

theorem dec_mul {a b c : Fl binary64} {k : ℕ} (h : Decreasing a b) (hc : Pos c k) : Decreasing (a * c) (b * c) := by
  obtain ⟨v, w, h1, h2, h3, h4⟩ := h
  obtain ⟨x, x0, x1⟩ := hc.pos
  exact ⟨_, _, value_mulE h1 x0 x1, value_mulE h2 x0 x1, mulE_nonneg h3 x1, mulE_mono x1 h4⟩

theorem dec_mul' {a b c : Fl binary64} {k : ℕ} (h : Decreasing a b) (hc : Pos c k) : Decreasing (c * a) (c * b) := by
  rw [mul_def, mul_def, mul_comm_fl c a, mul_comm_fl c b]
  exact dec_mul h hc

theorem dec_div {a b c : Fl binary64} {k : ℕ} (h : Decreasing a b) (hc : Pos c k) : Decreasing (a / c) (b / c) := by
  obtain ⟨v, w, h1, h2, h3, h4⟩ := h
  obtain ⟨x, x0, x1⟩ := hc.pos
  exact ⟨_, _, value_divE h1 x0 x1, value_divE h2 x0 x1, by rw [← divE_zero (b := x)]; exact divE_mono x1 h3, divE_mono x1 h4⟩

theorem dec_neg {a b : Fl binary64} (h : Decreasing a b) : Increasing (-a) (-b) := by
  obtain ⟨v, w, h1, h2, h3, h4⟩ := h
  exact ⟨_, _, value_neg h1, value_neg h2, by simpa using h3, EReal.neg_le_neg_iff.2 h4⟩

theorem inc_mul {a b c : Fl binary64} {k : ℕ} (h : Increasing a b) (hc : Pos c k) : Increasing (a * c) (b * c) := by
  obtain ⟨v, w, h1, h2, h3, h4⟩ := h
  obtain ⟨x, x0, x1⟩ := hc.pos
  exact ⟨_, _, value_mulE h1 x0 x1, value_mulE h2 x0 x1, by rw [← mulE_zero (b := x)]; exact mulE_mono x1 h3, mulE_mono x1 h4⟩

theorem inc_div {a b c : Fl binary64} {k : ℕ} (h : Increasing a b) (hc : Pos c k) : Increasing (a / c) (b / c) := by
  obtain ⟨v, w, h1, h2, h3, h4⟩ := h
  obtain ⟨x, x0, x1⟩ := hc.pos
  exact ⟨_, _, value_divE h1 x0 x1, value_divE h2 x0 x1, by rw [← divE_zero (b := x)]; exact divE_mono x1 h3, divE_mono x1 h4⟩

theorem mulE_right {x : EReal} (hx : 0 ≤ x) {b b' : ℝ} (h : b ≤ b') : mulE binary64 x b ≤ mulE binary64 x b' := by
  induction x using EReal.rec with
  | bot => simp at hx
  | top => simp [mulE]
  | coe x =>
    simp only [mulE]; simp
    exact binary64.mono (mul_le_mul_of_nonneg_left h (by exact_mod_cast hx))

/-- The Bose distribution does not increase with `beta`. -/
theorem bose_down {en beta beta' : Fl binary64} {b b' : ℝ} {k : ℕ} (he : Pos en k) (hb : Is beta b) (hb' : Is beta' b') (h0 : 0 < b) (h : b ≤ b') :
    Decreasing (F.bose_distribution_zero_chempot en beta) (F.bose_distribution_zero_chempot en beta') := by
  obtain ⟨x, x0, x1⟩ := he.pos
  have hx : (0 : EReal) ≤ (x : EReal) := by exact_mod_cast x1.le
  refine ⟨_, _, bose_zero_value x0 hb h0 hx, bose_zero_value x0 hb' (h0.trans_le h) hx, subInv_nonneg (one_le_expE (mulE_nonneg hx (h0.trans_le h))), ?_⟩
  exact subInv_anti (one_le_expE (mulE_nonneg hx h0)) (expE_mono (mulE_right hx h))

/-- Powers of ten between powers of two. -/
theorem pos_of {q : Fl binary64} {x : ℝ} (hq : Is q x) (h1 : 10 ^ (-30 : ℤ) ≤ x) (h2 : x ≤ 10 ^ 30) : Pos q 100 :=
  ⟨x, hq, le_trans (by norm_num) h1, h2.trans (by norm_num)⟩

end tadpoles

open tadpoles

/-- **C128** (zero mass): if the momentum is between `10^-30` and `10^30` the computed integrands of the massless tadpoles are never NaN, have
the sign of the exact ones, and their size does not decrease with the temperature (`beta <= beta'`). -/
theorem C128_massless (q beta beta' : Fl binary64) (x b b' : ℝ) (hq : Is q x) (hb : Is beta b) (hb' : Is beta' b')
    (h1 : 10 ^ (-30 : ℤ) ≤ x) (h2 : x ≤ 10 ^ 30) (h0 : 0 < b) (h : b ≤ b') :
    Decreasing (F.j_0_i q beta) (F.j_0_i q beta') ∧ Decreasing (F.j_0_t_i q beta) (F.j_0_t_i q beta') ∧
    Decreasing (F.d_j_0_l_i q beta) (F.d_j_0_l_i q beta') ∧ Decreasing (F.d2_j_0_t_i q beta) (F.d2_j_0_t_i q beta') ∧
    Increasing (F.j_0_l_i q beta) (F.j_0_l_i q beta') ∧ Increasing (F.d_j_0_i q beta) (F.d_j_0_i q beta') ∧
    Increasing (F.d_j_0_t_i q beta) (F.d_j_0_t_i q beta') := by
  have Q := pos_of hq h1 h2
  have B := bose_down Q hb hb' h0 h
  have Q2 := Q.mul Q (by norm_num)
  have Q3 := Q2.mul Q (by norm_num)
  have c (n : ℝ) (n1 : 1 ≤ n) (n2 : n ≤ 8) := (Pos.const n1 n2).mul pos_pi2 (by norm_num)
  have e (n : ℝ) (n1 : 1 ≤ n) (n2 : n ≤ 8) := (Q.mul (Pos.const n1 n2) (by norm_num)).mul pos_pi2 (by norm_num)
  exact ⟨dec_div (dec_mul B Q) (c 2 (by norm_num) (by norm_num)), dec_div (dec_mul B Q3) (c 6 (by norm_num) (by norm_num)), dec_div (dec_mul' B Q) (c 4 (by norm_num) (by norm_num)), dec_div B (e 8 (by norm_num) (by norm_num)),
    inc_div (inc_mul (dec_neg B) Q3) (c 2 (by norm_num) (by norm_num)), inc_div (dec_neg B) (e 4 (by norm_num) (by norm_num)), inc_div (inc_mul (dec_neg B) Q) (c 4 (by norm_num) (by norm_num))⟩

/-- **C128** (massive particles): the same for any mass up to `10^30`. -/
theorem C128_massive (q m beta beta' : Fl binary64) (x y b b' : ℝ) (hq : Is q x) (hm : Is m y) (hb : Is beta b) (hb' : Is beta' b')
    (h1 : 10 ^ (-30 : ℤ) ≤ x) (h2 : x ≤ 10 ^ 30) (h3 : |y| ≤ 10 ^ 30) (h0 : 0 < b) (h : b ≤ b') :
    Decreasing (F.j_m_i q m beta) (F.j_m_i q m beta') ∧ Decreasing (F.j_m_t_i q m beta) (F.j_m_t_i q m beta') ∧
    Decreasing (F.d_j_m_l_i q m beta) (F.d_j_m_l_i q m beta') ∧ Decreasing (F.d2_j_m_t_i q m beta) (F.d2_j_m_t_i q m beta') ∧
    Increasing (F.j_m_l_i q m beta) (F.j_m_l_i q m beta') ∧ Increasing (F.d_j_m_i q m beta) (F.d_j_m_i q m beta') ∧
    Increasing (F.d_j_m_t_i q m beta) (F.d_j_m_t_i q m beta') := by
  have Q := pos_of hq h1 h2
  obtain ⟨E, -⟩ := pos_energy Q hm (h3.trans (by norm_num)) (by norm_num)
  have B := bose_down E hb hb' h0 h
  have Q2 := Q.mul Q (by norm_num)
  have Q4 := Q2.mul Q2 (by norm_num)
  have c (n : ℝ) (n1 : 1 ≤ n) (n2 : n ≤ 8) := (Pos.const n1 n2).mul pos_pi2 (by norm_num)
  have e (n : ℝ) (n1 : 1 ≤ n) (n2 : n ≤ 8) := (E.mul (Pos.const n1 n2) (by norm_num)).mul pos_pi2 (by norm_num)
  exact ⟨dec_div (dec_mul B Q2) (e 2 (by norm_num) (by norm_num)), dec_div (dec_mul B Q4) (e 6 (by norm_num) (by norm_num)), dec_div (dec_mul' B E) (c 4 (by norm_num) (by norm_num)), dec_div B (e 8 (by norm_num) (by norm_num)),
    inc_div (inc_mul (inc_mul (dec_neg B) Q2) E) (c 2 (by norm_num) (by norm_num)), inc_div (dec_neg B) (e 4 (by norm_num) (by norm_num)), inc_div (inc_mul (dec_neg B) Q2) (e 4 (by norm_num) (by norm_num))⟩

/-- The value at a momentum so small that the exponential is rounded to one. -/
theorem bose_top {q beta : Fl binary64} {x b w : ℝ} (hq : Is q x) (hb : Is beta b) (h1 : 0 ≤ x) (h0 : 0 < b)
    (hw : round64 (x * b) = (w : EReal)) (he : binary64.exp w = 1) : IsE (F.bose_distribution_zero_chempot q beta) ⊤ :=
  C111_bose_infinite q beta x b w hq hb h1 h0 hw he

/-- **C128** (small momenta): if the exponential of `q * beta` is rounded to one all the massless integrands are infinite, although the
exact `j_0_i` is never larger than `1 / (2 * PI^2 * beta)`. -/
theorem C128_infinite (q beta : Fl binary64) (x b w : ℝ) (hq : Is q x) (hb : Is beta b)
    (h1 : 10 ^ (-30 : ℤ) ≤ x) (h2 : x ≤ 10 ^ 30) (h0 : 0 < b) (hw : round64 (x * b) = (w : EReal)) (he : binary64.exp w = 1) :
    IsE (F.j_0_i q beta) ⊤ ∧ IsE (F.j_0_t_i q beta) ⊤ ∧ IsE (F.d_j_0_l_i q beta) ⊤ ∧ IsE (F.d2_j_0_t_i q beta) ⊤ ∧
    IsE (F.j_0_l_i q beta) ⊥ ∧ IsE (F.d_j_0_i q beta) ⊥ ∧ IsE (F.d_j_0_t_i q beta) ⊥ ∧
    |thermal.j_0_i x b| ≤ 1 / (2 * Real.pi ^ 2 * b) := by
  have x0 : 0 < x := lt_of_lt_of_le (by positivity) h1
  have Q := pos_of hq h1 h2
  have Q2 := Q.mul Q (by norm_num)
  have Q3 := Q2.mul Q (by norm_num)
  have c (n : ℝ) (n1 : 1 ≤ n) (n2 : n ≤ 8) := (Pos.const n1 n2).mul pos_pi2 (by norm_num)
  have e (n : ℝ) (n1 : 1 ≤ n) (n2 : n ≤ 8) := (Q.mul (Pos.const n1 n2) (by norm_num)).mul pos_pi2 (by norm_num)
  have T := bose_top hq hb x0.le h0 hw he
  have N : IsE (-F.bose_distribution_zero_chempot q beta) ⊥ := by
    have h := value_neg T
    rw [EReal.neg_top] at h
    exact h
  have mt {a b : Fl binary64} {k : ℕ} (ha : IsE a ⊤) (hb : Pos b k) : IsE (a * b) ⊤ := by
    obtain ⟨y, y0, y1⟩ := hb.pos
    have := value_mulE ha y0 y1
    rwa [show mulE binary64 ⊤ y = ⊤ by simp [mulE]] at this
  have mb {a b : Fl binary64} {k : ℕ} (ha : IsE a ⊥) (hb : Pos b k) : IsE (a * b) ⊥ := by
    obtain ⟨y, y0, y1⟩ := hb.pos
    have := value_mulE ha y0 y1
    rwa [show mulE binary64 ⊥ y = ⊥ by simp [mulE]] at this
  have dt {a b : Fl binary64} {k : ℕ} (ha : IsE a ⊤) (hb : Pos b k) : IsE (a / b) ⊤ := by
    obtain ⟨y, y0, y1⟩ := hb.pos
    have := value_divE ha y0 y1
    rwa [show divE ⊤ y = ⊤ by simp [divE]] at this
  have db {a b : Fl binary64} {k : ℕ} (ha : IsE a ⊥) (hb : Pos b k) : IsE (a / b) ⊥ := by
    obtain ⟨y, y0, y1⟩ := hb.pos
    have := value_divE ha y0 y1
    rwa [show divE ⊥ y = ⊥ by simp [divE]] at this
  have T' : IsE (q * F.bose_distribution_zero_chempot q beta) ⊤ := by
    rw [mul_def, mul_comm_fl]; exact mt T Q
  refine ⟨dt (mt T Q) (c 2 (by norm_num) (by norm_num)), dt (mt T Q3) (c 6 (by norm_num) (by norm_num)), dt T' (c 4 (by norm_num) (by norm_num)), dt T (e 8 (by norm_num) (by norm_num)), db (mb N Q3) (c 2 (by norm_num) (by norm_num)), db N (e 4 (by norm_num) (by norm_num)),
    db (mb N Q) (c 4 (by norm_num) (by norm_num)), ?_⟩
  have p : 0 < x * b := by positivity
  have h := Real.add_one_le_exp (x * b)
  have hd : 0 < Real.exp (x * b) - 1 := by linarith
  have ej : thermal.j_0_i x b = (Real.exp (x * b) - 1)⁻¹ * x / (2 * PI2) := by
    simp [thermal.j_0_i, bose_distribution_zero_chempot, statistic_distribution_exponential_zero_chempot]
  have hpi := Real.pi_pos
  rw [ej, show PI2 = Real.pi ^ 2 by unfold PI2; ring, abs_of_pos (by positivity), ← div_div, div_div, div_le_div_iff₀ (by positivity) (by positivity)]
  have k : (Real.exp (x * b) - 1)⁻¹ * (x * b) ≤ 1 := by rw [inv_mul_le_iff₀ hd]; linarith
  nlinarith [mul_pos (mul_pos two_pos hpi) hpi, mul_le_mul_of_nonneg_right k (by positivity : 0 ≤ 2 * Real.pi ^ 2)]

/-- **C128** (zero momentum): at `q = 0` five of the massless integrands are NaN, the product of infinity and zero, and the other two are infinite. -/
theorem C128_zero (beta : Fl binary64) (b : ℝ) (hb : Is beta b) (h0 : 0 < b) :
    IsNaN (F.j_0_i (num 0) beta) ∧ IsNaN (F.j_0_l_i (num 0) beta) ∧ IsNaN (F.j_0_t_i (num 0) beta) ∧
    IsNaN (F.d_j_0_l_i (num 0) beta) ∧ IsNaN (F.d_j_0_t_i (num 0) beta) ∧
    IsE (F.d_j_0_i (num 0) beta) ⊥ ∧ IsE (F.d2_j_0_t_i (num 0) beta) ⊤ := by
  have hz : binary64.exp 0 = 1 := by
    refine round64_near_one (by simp) ?_
    simp
  have T := bose_top (q := num 0) (x := 0) (w := 0) rfl hb le_rfl h0 (by rw [zero_mul]; exact binary64.zero) hz
  have N : IsE (-F.bose_distribution_zero_chempot (num 0) beta) ⊥ := by
    have h := value_neg T
    rw [EReal.neg_top] at h
    exact h
  have z1 : (num 0 : Fl binary64).isNeg = false := by simp [isNeg]
  have mz {a : Fl binary64} (h : IsE a ⊤ ∨ IsE a ⊥) : a * num 0 = nan := by
    rcases h with h | h <;> simp [mul_def, Fl.mul, val_of h, show a.value = _ from h, val]
  have zm {a : Fl binary64} (h : IsE a ⊤ ∨ IsE a ⊥) : num 0 * a = nan := by
    rw [mul_def, mul_comm_fl]; exact mz h
  have zp {a : Fl binary64} {k : ℕ} (h : Pos a k) : num 0 * a = num 0 := by
    obtain ⟨y, y0, y1⟩ := h.pos
    have n1 := isNeg_pos y0 (by exact_mod_cast y1)
    simp [mul_def, Fl.mul, val_of y0, y0, val, n1, z1, Fl.round, binary64.zero]
  have zz : (num 0 * num 0 : Fl binary64) = num 0 := by
    simp [mul_def, Fl.mul, val, isNeg, Fl.round, binary64.zero]
  have nd (a : Fl binary64) : nan / a = nan := by
    change Fl.div nan a = nan
    simp [Fl.div]
  refine ⟨?_, ?_, ?_, ?_, ?_, ?_, ?_⟩
  · simp only [IsNaN, F.j_0_i]; rw [mz (.inl T), nd]
  · simp only [IsNaN, F.j_0_l_i]; rw [zz, zz, mz (.inr N), nd]
  · simp only [IsNaN, F.j_0_t_i]; rw [zz, zz, mz (.inl T), nd]
  · simp only [IsNaN, F.d_j_0_l_i]; rw [zm (.inl T), nd]
  · simp only [IsNaN, F.d_j_0_t_i]; rw [mz (.inr N), nd]
  · simp only [F.d_j_0_i]
    rw [zp (Pos.const (by norm_num : (1 : ℝ) ≤ 4) (by norm_num)), zp pos_pi2]
    have n1 := isNeg_neg N EReal.bot_lt_zero
    change (Fl.div _ _).value = _
    simp [Fl.div, val_of N, show Fl.value _ = _ from N, n1, val, z1]
  · simp only [F.d2_j_0_t_i]
    rw [zp (Pos.const (by norm_num : (1 : ℝ) ≤ 8) (by norm_num)), zp pos_pi2]
    have n1 := isNeg_pos T EReal.zero_lt_top
    change (Fl.div _ _).value = _
    simp [Fl.div, val_of T, show Fl.value _ = _ from T, n1, val, z1]

/-! ### Cases -/

/-- Momentum 1, inverse temperatures 2 and 3. -/
example : Decreasing (F.j_0_i (num (1 : ℝ)) (num (2 : ℝ))) (F.j_0_i (num (1 : ℝ)) (num (3 : ℝ))) :=
  (C128_massless (num (1 : ℝ)) (num (2 : ℝ)) (num (3 : ℝ)) 1 2 3 (value_num _) (value_num _) (value_num _) (by norm_num) (by norm_num) (by norm_num) (by norm_num)).1

/-- Momentum 3, mass -4. -/
example : Decreasing (F.j_m_i (num (3 : ℝ)) (num (-4 : ℝ)) (num (2 : ℝ))) (F.j_m_i (num (3 : ℝ)) (num (-4 : ℝ)) (num (3 : ℝ))) :=
  (C128_massive (num (3 : ℝ)) (num (-4 : ℝ)) (num (2 : ℝ)) (num (3 : ℝ)) 3 (-4) 2 3 (value_num _) (value_num _) (value_num _) (value_num _)
    (by norm_num) (by norm_num) (by norm_num) (by norm_num) (by norm_num)).1

/-- Momentum `2^-60`, inverse temperature 1: the computed value is infinite, the exact one less than `1 / (2 * PI^2)`. -/
example : IsE (F.j_0_i (num ((2 ^ (-60 : ℤ) : ℝ) : EReal) : Fl binary64) (num (1 : ℝ))) ⊤ ∧ |thermal.j_0_i (2 ^ (-60 : ℤ)) 1| ≤ 1 / (2 * Real.pi ^ 2 * 1) := by
  have hx0 : (0 : ℝ) < 2 ^ (-60 : ℤ) := by positivity
  have h := C128_infinite (num ((2 ^ (-60 : ℤ) : ℝ) : EReal)) (num (1 : ℝ)) (2 ^ (-60 : ℤ)) 1 (2 ^ (-60 : ℤ)) (value_num _) (value_num _) (by norm_num) (by norm_num)
    one_pos (by
      rw [mul_one]
      exact binary64_fixed ⟨1, -60, by norm_num, by norm_num, by norm_num, by simp⟩) (by
      refine round64_near_one (Real.one_le_exp hx0.le) ?_
      have h := Real.abs_exp_sub_one_le (x := (2 : ℝ) ^ (-60 : ℤ)) (by rw [abs_of_pos hx0]; norm_num)
      rw [abs_of_pos hx0] at h
      have h' := (abs_le.1 h).2
      norm_num at h' ⊢
      linarith)
  exact ⟨h.1, h.2.2.2.2.2.2.2⟩

/-- Zero momentum, inverse temperature 1. -/
example : IsNaN (F.j_0_i (num 0 : Fl binary64) (num (1 : ℝ))) := (C128_zero (num (1 : ℝ)) 1 (value_num _) one_pos).1

end Qcd
