import Verif.Lemmas.Accuracy
import Verif.Props.Floats

/-! C112: accuracy of the energy and of the distributions in floating-point arithmetic. -/

namespace Qcd
open Fl Spec

variable {r : Rounding} {u : ℝ}

/-- **C112** (`f64`): the operations of `f64`, with a correctly rounded exponential, have relative error at most `2^-53`. -/
theorem C112_binary64 : Accurate binary64 (2 ^ (-53 : ℤ)) := binary64_accurate

/-- **C112** (energy): relative error at most two and a bit units of rounding. -/
theorem C112_energy (h : Accurate r u) (hu : 0 ≤ u) (hu' : u ≤ 1 / 1024) (p m : Fl r) (x y : ℝ) (hp : Is p x) (hm : Is m y)
    (hx : Moderate x) (hy : Moderate y) :
    ∃ v : ℝ, Is (F.energy p m) v ∧ |v - energy x y| ≤ ((1 + u) ^ 2 - 1) * energy x y := by
  have hB := one_lt_big
  have hz : |(0 : ℝ)| ≤ 1 / 1024 := by norm_num
  have hx2 := range_mono (moderate_sq hx hz)
  have hy2 := range_mono (moderate_sq hy hz)
  rw [add_zero, mul_one] at hx2 hy2
  obtain ⟨d1, hd1, e1⟩ := h.rel hu hy2
  obtain ⟨d2, hd2, e2⟩ := h.rel hu hx2
  have b1 := moderate_sq hy (hd1.trans hu')
  have b2 := moderate_sq hx (hd2.trans hu')
  have a1 := abs_le.1 hd1
  have a2 := abs_le.1 hd2
  have n1 : 0 ≤ y * y * (1 + d1) := mul_nonneg (mul_self_nonneg y) (by linarith)
  have n2 : 0 ≤ x * x * (1 + d2) := mul_nonneg (mul_self_nonneg x) (by linarith)
  set S := y * y * (1 + d1) + x * x * (1 + d2) with hS
  have hS0 : 0 ≤ S := add_nonneg n1 n2
  have hE : energy x y = Real.sqrt (y * y + x * x) := by simp [energy, energy_squared]
  have hB3 : (0 : ℝ) < big ^ 3 := by have := big_pos; positivity
  have hB4 : big ^ 4 = big * big ^ 3 := by ring
  -- the sum
  have hSr : S = 0 ∨ ((big ^ 3)⁻¹ ≤ S ∧ S ≤ 2 * big ^ 3) := by
    rw [abs_of_nonneg n1] at b1
    rw [abs_of_nonneg n2] at b2
    rcases b1 with c1 | ⟨c1, c1'⟩ <;> rcases b2 with c2 | ⟨c2, c2'⟩
    · left; rw [hS, c1, c2, add_zero]
    · right; constructor <;> linarith
    · right; constructor <;> linarith
    · right; constructor <;> linarith
  have hi34 : (big ^ 4)⁻¹ ≤ (big ^ 3)⁻¹ / 2 := by
    rw [hB4, mul_inv, mul_comm, div_eq_mul_inv]
    have : big⁻¹ ≤ 2⁻¹ := inv_anti₀ (by norm_num) (by linarith)
    have := inv_pos.2 hB3
    gcongr
  have hi3 := inv_pos.2 hB3
  have hSr4 : S = 0 ∨ ((big ^ 4)⁻¹ ≤ |S| ∧ |S| ≤ big ^ 4) := by
    rw [abs_of_nonneg hS0]
    rcases hSr with c | ⟨c, c'⟩
    · exact Or.inl c
    · refine Or.inr ⟨by linarith, ?_⟩
      rw [hB4]; nlinarith
  obtain ⟨d3, hd3, e3⟩ := h.rel hu hSr4
  have a3 := abs_le.1 hd3
  have ht0 : 0 ≤ S * (1 + d3) := mul_nonneg hS0 (by linarith)
  have htr : Real.sqrt (S * (1 + d3)) = 0 ∨ ((big ^ 4)⁻¹ ≤ |Real.sqrt (S * (1 + d3))| ∧ |Real.sqrt (S * (1 + d3))| ≤ big ^ 4) := by
    rcases hSr with c | ⟨c, c'⟩
    · left; rw [c]; simp
    · refine Or.inr (sqrt_range ?_ ?_)
      · nlinarith
      · rw [hB4]; nlinarith
  obtain ⟨d4, hd4, e4⟩ := h.rel hu htr
  have a4 := abs_le.1 hd4
  refine ⟨Real.sqrt (S * (1 + d3)) * (1 + d4), ?_, ?_⟩
  · rw [Is, energy_eq hp hm, value_num]
    have f1 : sqE r (y : EReal) = ((y * y * (1 + d1) : ℝ) : EReal) := by
      simp only [sqE, EReal.toReal_coe, EReal.coe_ne_top, EReal.coe_ne_bot, or_self, if_false]; exact e1
    have f2 : sqE r (x : EReal) = ((x * x * (1 + d2) : ℝ) : EReal) := by
      simp only [sqE, EReal.toReal_coe, EReal.coe_ne_top, EReal.coe_ne_bot, or_self, if_false]; exact e2
    have f3 : addE r ((y * y * (1 + d1) : ℝ) : EReal) ((x * x * (1 + d2) : ℝ) : EReal) = ((S * (1 + d3) : ℝ) : EReal) := by
      simp only [addE, EReal.toReal_coe, EReal.coe_ne_top, or_self, if_false]; exact e3
    have f4 : sqrtE r ((S * (1 + d3) : ℝ) : EReal) = ((Real.sqrt (S * (1 + d3)) * (1 + d4) : ℝ) : EReal) := by
      simp only [sqrtE, EReal.toReal_coe, EReal.coe_ne_top, if_false]; exact e4
    rw [f1, f2, f3, f4]
  · rw [hE]
    set Q := y * y + x * x with hQ
    have hQ0 : 0 ≤ Q := add_nonneg (mul_self_nonneg y) (mul_self_nonneg x)
    have hy0 := mul_self_nonneg y
    have hx0 := mul_self_nonneg x
    have s1 : Q * (1 - u) ≤ S := by rw [hQ, hS]; nlinarith
    have s2 : S ≤ Q * (1 + u) := by rw [hQ, hS]; nlinarith
    have t1 : Q * (1 - u) ^ 2 ≤ S * (1 + d3) := by
      calc Q * (1 - u) ^ 2 = Q * (1 - u) * (1 - u) := by ring
        _ ≤ S * (1 + d3) := mul_le_mul s1 (by linarith) (by linarith) hS0
    have t2 : S * (1 + d3) ≤ Q * (1 + u) ^ 2 := by
      calc S * (1 + d3) ≤ Q * (1 + u) * (1 + u) := mul_le_mul s2 (by linarith) (by linarith) (by positivity)
        _ = Q * (1 + u) ^ 2 := by ring
    have q1 : Real.sqrt Q * (1 - u) ≤ Real.sqrt (S * (1 + d3)) := by
      have := Real.sqrt_le_sqrt t1
      rwa [Real.sqrt_mul hQ0, Real.sqrt_sq (by linarith)] at this
    have q2 : Real.sqrt (S * (1 + d3)) ≤ Real.sqrt Q * (1 + u) := by
      have := Real.sqrt_le_sqrt t2
      rwa [Real.sqrt_mul hQ0, Real.sqrt_sq (by linarith)] at this
    have hs := Real.sqrt_nonneg Q
    have hs' := Real.sqrt_nonneg (S * (1 + d3))
    have v1 : Real.sqrt Q * (1 - u) * (1 - u) ≤ Real.sqrt (S * (1 + d3)) * (1 + d4) := mul_le_mul q1 (by linarith) (by linarith) hs'
    have v2 : Real.sqrt (S * (1 + d3)) * (1 + d4) ≤ Real.sqrt Q * (1 + u) * (1 + u) :=
      mul_le_mul q2 (by linarith) (by linarith) (by positivity)
    rw [abs_le]
    constructor
    · nlinarith [sq_nonneg u]
    · nlinarith

/-- **C112** (Fermi distribution): the computed value divided by the exact one lies between the inverse of the factor and the factor,
which exceeds one by about `(3 + 2 |x|) u`. -/
theorem C112_fermi (h : Accurate r u) (hu : 0 ≤ u) (hu' : u ≤ 1 / 1024) (en beta mu : Fl r) (e b y : ℝ) (he : Is en e) (hb : Is beta b)
    (hm : Is mu y) (hb0 : 0 < b) (hd : Moderate (e - y)) (hx : Moderate ((e - y) * b)) (hmax : |(e - y) * b| ≤ 400) :
    ∃ v : ℝ, Is (F.fermi_distribution en beta mu) v ∧
      fermi_distribution e b y * (fermiFactor u ((e - y) * b))⁻¹ ≤ v ∧ v ≤ fermi_distribution e b y * fermiFactor u ((e - y) * b) := by
  obtain ⟨E, h0, h1, h2, h3, h4⟩ := exponential h hu hu' hd hx hmax
  have he0 : 0 ≤ ((1 + u) ^ 2 - 1) * |(e - y) * b| := mul_nonneg (by nlinarith) (abs_nonneg _)
  obtain ⟨v, hv, v1, v2⟩ := reciprocal h hu hu' (Real.exp_pos _) he0 h1 h2 h3 h4
  refine ⟨v, ?_, ?_, ?_⟩
  · rw [Is, fermi_value he hb hm hb0]
    have e1 : subE r (e : EReal) y = r.rnd (e - y) := by simp [subE]
    rw [e1, h0, hv]
  · rw [fermi_real]; exact v1
  · rw [fermi_real]; exact v2

/-- **C112** (Fermi distribution at vanishing chemical potential). -/
theorem C112_fermi_zero_chempot (h : Accurate r u) (hu : 0 ≤ u) (hu' : u ≤ 1 / 1024) (en beta : Fl r) (e b : ℝ) (he : Is en e)
    (hb : Is beta b) (hb0 : 0 < b) (hex : r.rnd e = (e : EReal)) (hd : Moderate e) (hx : Moderate (e * b)) (hmax : |e * b| ≤ 400) :
    ∃ v : ℝ, Is (F.fermi_distribution_zero_chempot en beta) v ∧
      fermi_distribution_zero_chempot e b * (fermiFactor u (e * b))⁻¹ ≤ v ∧ v ≤ fermi_distribution_zero_chempot e b * fermiFactor u (e * b) := by
  obtain ⟨E, h0, h1, h2, h3, h4⟩ := exponential h hu hu' hd hx hmax
  have he0 : 0 ≤ ((1 + u) ^ 2 - 1) * |e * b| := mul_nonneg (by nlinarith) (abs_nonneg _)
  obtain ⟨v, hv, v1, v2⟩ := reciprocal h hu hu' (Real.exp_pos _) he0 h1 h2 h3 h4
  have hr : fermi_distribution_zero_chempot e b = (Real.exp (e * b) + 1)⁻¹ := by
    simp [fermi_distribution_zero_chempot, statistic_distribution_exponential_zero_chempot]
  refine ⟨v, ?_, ?_, ?_⟩
  · rw [Is, fermi_zero_value he hb hb0]
    rw [hex] at h0
    rw [h0, hv]
  · rw [hr]; exact v1
  · rw [hr]; exact v2

/-- **C112** (Bose distribution): the cancellation in `exp x - 1` is the leading error for a small argument. -/
theorem C112_bose (h : Accurate r u) (hu : 0 ≤ u) (hu' : u ≤ 1 / 1024) (en beta mu : Fl r) (e b y : ℝ) (he : Is en e) (hb : Is beta b)
    (hm : Is mu y) (hb0 : 0 < b) (hd : Moderate (e - y)) (hx : Moderate ((e - y) * b)) (hey : y < e) (hmax : (e - y) * b ≤ 400)
    (hl : boseLoss u ((e - y) * b) < 1 / 2) :
    ∃ v : ℝ, Is (F.bose_distribution en beta mu) v ∧
      bose_distribution e b y * ((1 - u) / ((1 + boseLoss u ((e - y) * b)) * (1 + u))) ≤ v ∧
      v ≤ bose_distribution e b y * ((1 + u) / ((1 - boseLoss u ((e - y) * b)) * (1 - u))) := by
  have hp : 0 < (e - y) * b := mul_pos (by linarith) hb0
  have ha : |(e - y) * b| = (e - y) * b := abs_of_pos hp
  obtain ⟨E, h0, h1, h2, h3, h4⟩ := exponential h hu hu' hd hx (by rwa [ha])
  rw [ha] at h1 h2
  have he0 : 0 ≤ ((1 + u) ^ 2 - 1) * ((e - y) * b) := mul_nonneg (by nlinarith) hp.le
  have hX : big⁻¹ ≤ Real.exp ((e - y) * b) - 1 := by
    rcases hx with h0 | h0
    · exact absurd h0 hp.ne'
    · rw [ha] at h0
      linarith [Real.add_one_le_exp ((e - y) * b), h0.1]
  obtain ⟨v, hv, v1, v2⟩ := reciprocal_sub h hu hu' hX he0 h1 h2 h4 rfl hl
  refine ⟨v, ?_, ?_, ?_⟩
  · rw [Is, bose_value he hb hm hb0 (by exact_mod_cast hey.le)]
    have e1 : subE r (e : EReal) y = r.rnd (e - y) := by simp [subE]
    rw [e1, h0, hv]
  · rw [bose_real]; exact v1
  · rw [bose_real]; exact v2

theorem unit53 : (0 : ℝ) < 2 ^ (-53 : ℤ) ∧ (2 : ℝ) ^ (-53 : ℤ) ≤ 1 / 2 ^ 20 ∧ (2 : ℝ) ^ (-53 : ℤ) ≤ 1 / 1024 := by norm_num

/-- **C112** (`f64`): the energy has a relative error below `3 * 2^-53`. -/
theorem C112_energy_f64 (p m : Fl binary64) (x y : ℝ) (hp : Is p x) (hm : Is m y) (hx : Moderate x) (hy : Moderate y) :
    ∃ v : ℝ, Is (F.energy p m) v ∧ |v - energy x y| ≤ 3 * 2 ^ (-53 : ℤ) * energy x y := by
  obtain ⟨u0, u1, u2⟩ := unit53
  obtain ⟨v, hv, h⟩ := C112_energy C112_binary64 u0.le u2 p m x y hp hm hx hy
  refine ⟨v, hv, h.trans (mul_le_mul_of_nonneg_right ?_ ?_)⟩
  · norm_num
  · simp [energy, Real.sqrt_nonneg]

/-- **C112** (`f64`): the Fermi distribution has a relative error of at most `(5 |x| + 4) * 2^-53`, where `x` is the argument of the exponential. -/
theorem C112_fermi_f64 (en beta mu : Fl binary64) (e b y : ℝ) (he : Is en e) (hb : Is beta b) (hm : Is mu y) (hb0 : 0 < b)
    (hd : Moderate (e - y)) (hx : Moderate ((e - y) * b)) (hmax : |(e - y) * b| ≤ 400) :
    ∃ v : ℝ, Is (F.fermi_distribution en beta mu) v ∧
      |v - fermi_distribution e b y| ≤ (5 * |(e - y) * b| + 4) * 2 ^ (-53 : ℤ) * fermi_distribution e b y := by
  obtain ⟨u0, u1, u2⟩ := unit53
  obtain ⟨v, hv, h1, h2⟩ := C112_fermi C112_binary64 u0.le u2 en beta mu e b y he hb hm hb0 hd hx hmax
  have hf : 0 < fermi_distribution e b y := by rw [fermi_real]; have := Real.exp_pos ((e - y) * b); positivity
  have hA := fermiFactor_le u0 u1 hmax
  have hA0 : 0 < fermiFactor (2 ^ (-53 : ℤ)) ((e - y) * b) := by
    unfold fermiFactor
    have := Real.exp_pos (((1 + (2 : ℝ) ^ (-53 : ℤ)) ^ 2 - 1) * |(e - y) * b|)
    refine mul_pos ?_ this
    norm_num
  set A := fermiFactor (2 ^ (-53 : ℤ)) ((e - y) * b)
  set q := (5 * |(e - y) * b| + 4) * (2 : ℝ) ^ (-53 : ℤ) with hq
  have hq0 : 0 ≤ q := by have := abs_nonneg ((e - y) * b); positivity
  have hAi : 1 - q ≤ A⁻¹ := by
    rw [le_inv_comm₀ (by
      have : q ≤ (5 * 400 + 4) * (1 / 2 ^ 20) := mul_le_mul (by linarith) u1 u0.le (by norm_num)
      norm_num at this; linarith) hA0]
    refine hA.trans ?_
    have hq1 : q < 1 := by
      have : q ≤ (5 * 400 + 4) * (1 / 2 ^ 20) := mul_le_mul (by linarith) u1 u0.le (by norm_num)
      norm_num at this; linarith
    rw [inv_eq_one_div, le_div_iff₀ (by linarith)]
    nlinarith [sq_nonneg q]
  refine ⟨v, hv, ?_⟩
  rw [abs_le]
  constructor
  · have := mul_le_mul_of_nonneg_left hAi hf.le
    linarith
  · have := mul_le_mul_of_nonneg_left hA hf.le
    linarith

/-- **C112** (`f64`): the Bose distribution has a relative error of at most `(6 x + 2 / x + 12) * 2^-53`, for arguments not too small. -/
theorem C112_bose_f64 (en beta mu : Fl binary64) (e b y : ℝ) (he : Is en e) (hb : Is beta b) (hm : Is mu y) (hb0 : 0 < b)
    (hd : Moderate (e - y)) (hmin : 1 / 2 ^ 20 ≤ (e - y) * b) (hmax : (e - y) * b ≤ 400) :
    ∃ v : ℝ, Is (F.bose_distribution en beta mu) v ∧
      |v - bose_distribution e b y| ≤ (6 * ((e - y) * b) + 2 / ((e - y) * b) + 12) * 2 ^ (-53 : ℤ) * bose_distribution e b y := by
  obtain ⟨u0, u1, u2⟩ := unit53
  have hp : 0 < (e - y) * b := lt_of_lt_of_le (by norm_num) hmin
  have hey : y < e := by
    have := (mul_pos_iff_of_pos_right hb0).1 hp
    linarith
  have hx : Moderate ((e - y) * b) := by
    right
    rw [abs_of_pos hp]
    have h1 : big⁻¹ ≤ 1 / 2 ^ 20 := by
      rw [inv_eq_one_div]
      refine one_div_le_one_div_of_le (by norm_num) ?_
      unfold big
      exact pow_le_pow_right₀ (by norm_num) (by norm_num)
    exact ⟨h1.trans hmin, by linarith [one_lt_big]⟩
  obtain ⟨H0, H1⟩ := boseLoss_le u0 u1 hp hmax
  set x := (e - y) * b with hxe
  have hinv : 1 / x ≤ 2 ^ 20 := by rw [div_le_iff₀ hp]; norm_num at hmin ⊢; linarith
  have hinv0 : 0 < 1 / x := by positivity
  set u : ℝ := 2 ^ (-53 : ℤ) with hu
  have u3 : u ≤ 1 / 2 ^ 50 := by rw [hu]; norm_num
  have H2 : boseLoss u x ≤ 1 / 2 ^ 20 := by
    refine H1.trans ?_
    have := mul_le_mul (show 5 * x + 6 + 1 / x ≤ 5 * 400 + 6 + 2 ^ 20 by linarith) u3 u0.le (by norm_num)
    refine this.trans (by norm_num)
  obtain ⟨v, hv, h1, h2⟩ := C112_bose C112_binary64 u0.le u2 en beta mu e b y he hb hm hb0 hd hx hey hmax
    (lt_of_le_of_lt H2 (by norm_num))
  rw [← hxe, ← hu] at h1 h2
  set H := boseLoss u x
  clear_value u H
  have hn : 0 < bose_distribution e b y := by
    rw [bose_real]
    have := Real.add_one_le_exp ((e - y) * b)
    exact inv_pos.2 (by linarith)
  have e2 : (2 : ℝ) / x = 2 * (1 / x) := by ring
  have up : (1 + u) / ((1 - H) * (1 - u)) ≤ 1 + (6 * x + 2 / x + 12) * u := by
    have a : (1 + u) / ((1 - H) * (1 - u)) ≤ 1 + 1.01 * H + 3 * u := by
      rw [div_le_iff₀ (mul_pos (by norm_num at H2; linarith) (by norm_num at u3; linarith))]
      norm_num at H2 u3 ⊢; nlinarith [mul_nonneg H0 u0.le, mul_nonneg (mul_nonneg H0 u0.le) u0.le, mul_nonneg (mul_nonneg H0 u0.le) H0]
    have b : 1.01 * H ≤ 1.01 * ((5 * x + 6 + 1 / x) * u) := by linarith
    refine a.trans ?_
    rw [e2]
    nlinarith [mul_pos hp u0, mul_pos hinv0 u0]
  have lo : 1 - (6 * x + 2 / x + 12) * u ≤ (1 - u) / ((1 + H) * (1 + u)) := by
    have a : 1 - (H + 3 * u) ≤ (1 - u) / ((1 + H) * (1 + u)) := by
      rw [le_div_iff₀ (mul_pos (by linarith) (by linarith))]
      nlinarith [mul_nonneg H0 u0.le, mul_nonneg (mul_nonneg H0 u0.le) u0.le, mul_nonneg (mul_nonneg H0 u0.le) H0]
    refine le_trans ?_ a
    rw [e2]
    nlinarith [mul_pos hp u0, mul_pos hinv0 u0]
  refine ⟨v, hv, ?_⟩
  rw [abs_le]
  constructor
  · have := mul_le_mul_of_nonneg_left lo hn.le
    linarith
  · have := mul_le_mul_of_nonneg_left up hn.le
    linarith

/-! ### Cases -/

example : Moderate (3 : ℝ) ∧ Moderate (1 / 4 : ℝ) ∧ Moderate (0 : ℝ) := by
  have h := one_lt_big
  have hb : big⁻¹ ≤ 1 / 1024 := by rw [inv_eq_one_div]; exact one_div_le_one_div_of_le (by norm_num) h.le
  refine ⟨Or.inr ?_, Or.inr ?_, Or.inl rfl⟩
  · rw [abs_of_pos (by norm_num)]; constructor <;> linarith
  · rw [abs_of_pos (by norm_num)]; constructor <;> linarith

/-- At energy 3, chemical potential 1 and inverse temperature 4: at most 44 units of `2^-53`. -/
example : ∃ v : ℝ, Is (F.fermi_distribution (Fl.num (3 : ℝ) : Fl binary64) (Fl.num (4 : ℝ)) (Fl.num (1 : ℝ))) v ∧
    |v - fermi_distribution (3 : ℝ) (4 : ℝ) (1 : ℝ)| ≤ 44 * 2 ^ (-53 : ℤ) * fermi_distribution (3 : ℝ) (4 : ℝ) (1 : ℝ) := by
  have h := one_lt_big
  have hb : big⁻¹ ≤ 1 / 1024 := by rw [inv_eq_one_div]; exact one_div_le_one_div_of_le (by norm_num) h.le
  obtain ⟨v, h1, h2⟩ := C112_fermi_f64 (Fl.num (3 : ℝ)) (Fl.num (4 : ℝ)) (Fl.num (1 : ℝ)) 3 4 1 (value_num _) (value_num _) (value_num _) (by norm_num)
    (Or.inr (by rw [abs_of_pos (by norm_num)]; constructor <;> linarith))
    (Or.inr (by rw [abs_of_pos (by norm_num)]; constructor <;> linarith)) (by rw [abs_of_pos (by norm_num)]; norm_num)
  refine ⟨v, h1, h2.trans (le_of_eq ?_)⟩
  rw [abs_of_pos (by norm_num)]; norm_num

example : ∃ v : ℝ, Is (F.bose_distribution (Fl.num (3 : ℝ) : Fl binary64) (Fl.num (1 : ℝ)) (Fl.num (1 : ℝ))) v ∧
    |v - bose_distribution (3 : ℝ) (1 : ℝ) (1 : ℝ)| ≤ 25 * 2 ^ (-53 : ℤ) * bose_distribution (3 : ℝ) (1 : ℝ) (1 : ℝ) := by
  have h := one_lt_big
  have hb : big⁻¹ ≤ 1 / 1024 := by rw [inv_eq_one_div]; exact one_div_le_one_div_of_le (by norm_num) h.le
  obtain ⟨v, h1, h2⟩ := C112_bose_f64 (Fl.num (3 : ℝ)) (Fl.num (1 : ℝ)) (Fl.num (1 : ℝ)) 3 1 1 (value_num _) (value_num _) (value_num _) (by norm_num)
    (Or.inr (by rw [abs_of_pos (by norm_num)]; constructor <;> linarith)) (by norm_num) (by norm_num)
  refine ⟨v, h1, h2.trans (le_of_eq ?_)⟩
  norm_num

end Qcd
