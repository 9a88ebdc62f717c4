import Mathlib.Tactic.NormNum
import Mathlib.Tactic.Ring
import Verif.Lemmas.Floats
import Verif.Model.Binary64
import Verif.Spec.Floats

/-! # Lemmas on binary64 and the Fermi momentum -/

namespace Qcd
open Fl

theorem Fl.sqrt_value {r : Rounding} {a : Fl r} {x : EReal} (ha : a.value = some x) :
    (x < 0 → sqrt a = nan) ∧ (0 ≤ x → (sqrt a).value = some (sqrtE r x)) := by
  cases a with
  | nan => simp at ha
  | nz =>
    simp at ha; subst ha
    refine ⟨fun h => absurd h (lt_irrefl _), fun _ => ?_⟩
    simp [sqrt, sqrtE, r.zero]
  | num y =>
    simp at ha; subst ha
    refine ⟨fun h => by simp [sqrt, h], fun h => by rw [sqrt_nonneg_eq h]; simp⟩

/-- The Fermi momentum from the values of the arguments. -/
theorem Fl.fermi_momentum_cases {r : Rounding} {m mu : Fl r} {x y z : ℝ} (hm : m.value = some (y : EReal))
    (hmu : mu.value = some (x : EReal)) (hz : r.rnd (y * y) = (z : EReal)) :
    (r.rnd (x * x - z) < 0 → F.fermi_momentum m mu = nan) ∧
    (0 ≤ r.rnd (x * x - z) → (F.fermi_momentum m mu).value = some (sqrtE r (r.rnd (x * x - z)))) := by
  have h1 : mul m m = num (z : EReal) := by rw [mul_self_eq hm]; simp [sqE, hz]
  have hn : (neg (num (z : EReal) : Fl r)).value = some ((-z : ℝ) : EReal) := by rw [value_neg (value_num _)]; rfl
  have h2 : (mulAdd mu mu (neg (num (z : EReal)))).value = some (r.rnd (x * x - z)) := by
    unfold mulAdd
    simp only [hmu, hn, val_of hmu, val_of hn, EReal.toReal_coe]
    simp [value_round, sub_eq_add_neg]
  have e : F.fermi_momentum m mu = sqrt (mulAdd mu mu (neg (mul m m))) := rfl
  rw [e, h1]
  exact sqrt_value h2

theorem Fl.fermi_momentum_overflow {r : Rounding} {m mu : Fl r} {x y : ℝ} (hm : m.value = some (y : EReal))
    (hmu : mu.value = some (x : EReal)) (hz : r.rnd (y * y) = ⊤) : F.fermi_momentum m mu = nan := by
  have h1 : mul m m = num ⊤ := by rw [mul_self_eq hm]; simp [sqE, hz]
  have h3 : neg (num ⊤ : Fl r) = num ⊥ := by simp [neg]
  have e : F.fermi_momentum m mu = sqrt (mulAdd mu mu (neg (mul m m))) := rfl
  rw [e, h1, h3]
  have h2 : mulAdd mu mu (num ⊥) = num ⊥ := by
    unfold mulAdd
    simp [hmu, val_of hmu]
  rw [h2]; simp [sqrt]

/-- The distance of a number from its rounding is at most half a unit in the last place. -/
theorem abs_roundPos_sub {x : ℝ} : |roundPos x - x| ≤ 2 ^ (expo x - 53) := by
  have h := abs_roundEven (x * 2 ^ (52 - expo x))
  have e : x = x * 2 ^ (52 - expo x) * 2 ^ (expo x - 52) := by
    rw [mul_assoc, ← zpow_add₀ (by norm_num)]; simp
  have e2 : roundPos x - x = ((roundEven (x * 2 ^ (52 - expo x)) : ℝ) - x * 2 ^ (52 - expo x)) * 2 ^ (expo x - 52) := by
    rw [sub_mul, ← e]; rfl
  rw [e2, abs_mul, abs_of_pos (show (0 : ℝ) < 2 ^ (expo x - 52) by positivity)]
  calc _ ≤ 1 / 2 * (2 : ℝ) ^ (expo x - 52) := by gcongr
    _ = 2 ^ (expo x - 53) := by
      rw [show expo x - 53 = -1 + (expo x - 52) by ring, zpow_add₀ (by norm_num)]; norm_num

theorem round53_abs (x : ℝ) : |round53 x| = roundPos |x| := by
  unfold round53
  split_ifs with h
  · rw [abs_neg, abs_of_neg h, abs_of_nonneg (roundPos_nonneg (by linarith))]
  · push Not at h
    rw [abs_of_nonneg h, abs_of_nonneg (roundPos_nonneg h)]

theorem round64_real {x y : ℝ} (h : round64 x = (y : EReal)) : round53 x = y := by
  unfold round64 at h
  split_ifs at h with h1 h2
  · simp at h
  · simp at h
  · exact_mod_cast h

theorem roundPos_of_representable {x : ℝ} (h : round64 x = (x : EReal)) : roundPos |x| = |x| := by
  rw [← round53_abs, round64_real h]

/-- Two positive numbers of 53 bits are at least a unit in the last place of the smaller one apart. -/
theorem representable_gap {x y : ℝ} (hx : 0 < x) (hxy : x < y) (h1 : roundPos x = x) (h2 : roundPos y = y) :
    x + 2 ^ (expo x - 52) ≤ y := by
  have he := expo_mono hx hxy.le
  obtain ⟨n, hn⟩ := Int.le.dest he
  obtain ⟨k, hk⟩ : ∃ k : ℤ, x = k * 2 ^ (expo x - 52) := ⟨_, h1.symm⟩
  obtain ⟨j, hj⟩ : ∃ j : ℤ, y = j * 2 ^ (expo y - 52) := ⟨_, h2.symm⟩
  have hj' : y = (j * 2 ^ n : ℤ) * 2 ^ (expo x - 52) := by
    rw [hj, ← hn]; push_cast
    rw [mul_assoc, show (expo x + (n : ℤ) - 52) = (n : ℤ) + (expo x - 52) by ring, zpow_add₀ (by norm_num), zpow_natCast]
  have hp : (0 : ℝ) < 2 ^ (expo x - 52) := by positivity
  have hlt : k < j * 2 ^ n := by
    have : (k : ℝ) * 2 ^ (expo x - 52) < (j * 2 ^ n : ℤ) * 2 ^ (expo x - 52) := by rw [← hk, ← hj']; exact hxy
    exact_mod_cast lt_of_mul_lt_mul_right this hp.le
  have hle : (k : ℝ) + 1 ≤ (j * 2 ^ n : ℤ) := by exact_mod_cast hlt
  calc x + 2 ^ (expo x - 52) = (k + 1) * 2 ^ (expo x - 52) := by rw [add_mul, ← hk, one_mul]
    _ ≤ (j * 2 ^ n : ℤ) * 2 ^ (expo x - 52) := by gcongr
    _ = y := hj'.symm

theorem round64_eq_zero_of_small {x : ℝ} (h : |x| < 2 ^ (-1075 : ℤ)) : round64 x = 0 := by
  have hp : roundPos |x| = 0 := by
    have hlt : |x| < (2 : ℝ) ^ (-1022 : ℤ) := h.trans (zpow_lt_zpow_right₀ (by norm_num) (by norm_num))
    rcases (abs_nonneg x).eq_or_lt with h0 | h0
    · rw [← h0, roundPos_zero]
    have he : expo |x| = -1022 := by
      unfold expo
      apply max_eq_right
      have := (Int.lt_zpow_iff_log_lt (b := 2) (by norm_num) h0 (x := -1022)).1 (by exact_mod_cast hlt)
      omega
    unfold roundPos
    rw [he]
    have h2 : |x| * 2 ^ (52 - (-1022) : ℤ) < 1 / 2 := by
      calc |x| * (2 : ℝ) ^ (52 - (-1022) : ℤ) < 2 ^ (-1075 : ℤ) * 2 ^ (52 - (-1022) : ℤ) := by gcongr
        _ = 2 ^ (-1 : ℤ) := by rw [← zpow_add₀ (by norm_num)]; norm_num
        _ = 1 / 2 := by norm_num
    have h3 : (0 : ℝ) ≤ |x| * 2 ^ (52 - (-1022) : ℤ) := by positivity
    have hfl : ⌊|x| * (2 : ℝ) ^ (52 - (-1022) : ℤ)⌋ = 0 := Int.floor_eq_zero_iff.2 ⟨h3, h2.trans (by norm_num)⟩
    have hfr : Int.fract (|x| * (2 : ℝ) ^ (52 - (-1022) : ℤ)) < 1 / 2 := by
      have := Int.floor_add_fract (|x| * (2 : ℝ) ^ (52 - (-1022) : ℤ))
      rw [hfl, Int.cast_zero, zero_add] at this
      rw [this]; exact h2
    have : roundEven (|x| * (2 : ℝ) ^ (52 - (-1022) : ℤ)) = 0 := by
      unfold roundEven; rw [if_pos hfr]; exact hfl
    rw [this]; simp
  have h53 : round53 x = 0 := by rw [← abs_eq_zero, round53_abs, hp]
  have := round64_of h53 (by rw [abs_zero]; linarith [one_lt_overflow])
  simpa using this

/-- For numbers of `f64` with `|m| < |mu|` the rounded square of `m` is not above the square of `mu`, up to underflow. -/
theorem round64_sq_sub {x y z : ℝ} (hx : round64 x = (x : EReal)) (hy : round64 y = (y : EReal)) (h : |y| < |x|)
    (hz : round64 (y * y) = (z : EReal)) : z ≤ x * x ∨ |x * x - z| < 2 ^ (-1075 : ℤ) := by
  have hX := roundPos_of_representable hx
  have hY := roundPos_of_representable hy
  have hs : roundPos (y * y) = z := by
    have := round64_real hz
    unfold round53 at this
    rwa [if_neg (not_lt.2 (mul_self_nonneg y))] at this
  rw [← abs_mul_abs_self x]
  rw [← abs_mul_abs_self y] at hs
  generalize |x| = X at *
  generalize hYY : |y| = Y at *
  have hY0 : 0 ≤ Y := hYY ▸ abs_nonneg y
  rcases hY0.eq_or_lt with h0 | hpos
  · left; rw [← h0, mul_zero, roundPos_zero] at hs; rw [← hs]; exact mul_self_nonneg X
  by_cases hle : z ≤ X * X
  · exact Or.inl hle
  right
  push Not at hle
  have herr := abs_roundPos_sub (x := Y * Y)
  rw [hs] at herr
  have herr' := (abs_le.1 herr).2
  have hsq : Y * Y < X * X := mul_self_lt_mul_self hY0 h
  by_cases hnorm : expo (Y * Y) = -1022
  · rw [hnorm] at herr'
    rw [abs_lt]
    constructor
    · have : z - X * X < (2 : ℝ) ^ (-1075 : ℤ) := by
        have e : ((-1022 : ℤ) - 53) = -1075 := by norm_num
        rw [e] at herr'
        linarith
      linarith
    · have : (0 : ℝ) < 2 ^ (-1075 : ℤ) := by positivity
      linarith
  · exfalso
    have hgt : -1022 < expo (Y * Y) := lt_of_le_of_ne (le_max_right _ _) (Ne.symm hnorm)
    have h1 := zpow_expo_le (mul_pos hpos hpos) hgt
    have h2 := lt_zpow_expo Y hY0
    have hub : Y * Y < 2 ^ (2 * expo Y + 2) := by
      calc Y * Y < 2 ^ (expo Y + 1) * 2 ^ (expo Y + 1) := mul_self_lt_mul_self hY0 h2
        _ = 2 ^ (2 * expo Y + 2) := by rw [← zpow_add₀ (by norm_num)]; congr 1; ring
    have hexp : expo (Y * Y) < 2 * expo Y + 2 := (zpow_lt_zpow_iff_right₀ (by norm_num : (1 : ℝ) < 2)).1 (h1.trans_lt hub)
    have hYn : -1022 < expo Y := by omega
    have h3 := zpow_expo_le hpos hYn
    have hgap := representable_gap hpos h hY hX
    have hp : (0 : ℝ) < 2 ^ (expo Y - 52) := by positivity
    have hdiff : (2 : ℝ) ^ (2 * expo Y - 51) ≤ X * X - Y * Y := by
      calc (2 : ℝ) ^ (2 * expo Y - 51) = 2 * (2 ^ expo Y * 2 ^ (expo Y - 52)) := by
            rw [← zpow_add₀ (by norm_num), show 2 * expo Y - 51 = 1 + (expo Y + (expo Y - 52)) by ring,
              zpow_add₀ (by norm_num : (2 : ℝ) ≠ 0) 1]; norm_num
        _ ≤ 2 * (Y * 2 ^ (expo Y - 52)) := by gcongr
        _ ≤ X * X - Y * Y := by nlinarith
    have hsmall : (2 : ℝ) ^ (expo (Y * Y) - 53) ≤ 2 ^ (2 * expo Y - 51) := zpow_le_zpow_right₀ (by norm_num) (by omega)
    linarith

theorem abs_roundEven_le (x : ℝ) (j : ℤ) : |x - (roundEven x : ℝ)| ≤ |x - j| := by
  have h := abs_roundEven x
  by_cases hj : j = roundEven x
  · rw [hj]
  have h1 : (1 : ℝ) ≤ |(roundEven x : ℝ) - j| := by
    have : (1 : ℤ) ≤ |roundEven x - j| := Int.one_le_abs (sub_ne_zero.2 (Ne.symm hj))
    exact_mod_cast this
  have h2 : |(roundEven x : ℝ) - j| ≤ |(roundEven x : ℝ) - x| + |x - j| := abs_sub_le _ _ _
  rw [abs_sub_comm x]
  linarith

theorem roundPos_nearest {x : ℝ} (hx : 0 ≤ x) {z : ℝ} (hz : Spec.Binary64 z) : |x - roundPos x| ≤ |x - z| := by
  rcases hx.eq_or_lt with h0 | hxp
  · rw [← h0, roundPos_zero, sub_self, abs_zero]; exact abs_nonneg _
  obtain ⟨k, e, hk, he, _, rfl⟩ := hz
  have hp : (0 : ℝ) < 2 ^ (expo x - 52) := by positivity
  have ex : x * 2 ^ (52 - expo x) * 2 ^ (expo x - 52) = x := by
    rw [mul_assoc, ← zpow_add₀ (by norm_num)]; simp
  have key : ∀ j : ℤ, |x - roundPos x| ≤ |x - j * 2 ^ (expo x - 52)| := fun j => by
    have h := abs_roundEven_le (x * 2 ^ (52 - expo x)) j
    have h' := mul_le_mul_of_nonneg_right h hp.le
    rw [← abs_of_pos hp, ← abs_mul, ← abs_mul, sub_mul, sub_mul, ex] at h'
    exact h'
  by_cases hge : expo x - 52 ≤ e
  · obtain ⟨n, hn⟩ := Int.le.dest hge
    have := key (k * 2 ^ n)
    rw [← hn, add_comm, zpow_add₀ (by norm_num), ← mul_assoc, zpow_natCast]
    push_cast at this
    exact this
  · push Not at hge
    have hgt : -1022 < expo x := by omega
    have h1 := zpow_expo_le hxp hgt
    have h2 : |(k : ℝ) * 2 ^ e| ≤ 2 ^ expo x := by
      have hk' : |(k : ℝ)| ≤ 2 ^ (53 : ℤ) := by
        have : |(k : ℝ)| < ((2 ^ 53 : ℤ) : ℝ) := by exact_mod_cast hk
        calc |(k : ℝ)| ≤ ((2 ^ 53 : ℤ) : ℝ) := this.le
          _ = 2 ^ (53 : ℤ) := by norm_num
      rw [abs_mul, abs_of_pos (show (0 : ℝ) < 2 ^ e by positivity)]
      calc |(k : ℝ)| * 2 ^ e ≤ 2 ^ (53 : ℤ) * 2 ^ e := by gcongr
        _ = 2 ^ (53 + e) := (zpow_add₀ (by norm_num) _ _).symm
        _ ≤ 2 ^ expo x := zpow_le_zpow_right₀ (by norm_num) (by omega)
    have h3 := key (2 ^ 52)
    have e3 : ((2 ^ 52 : ℤ) : ℝ) * 2 ^ (expo x - 52) = 2 ^ expo x := by
      rw [show ((2 ^ 52 : ℤ) : ℝ) = 2 ^ (52 : ℤ) by norm_num, ← zpow_add₀ (by norm_num)]; congr 1; ring
    rw [e3, abs_of_nonneg (by linarith : (0 : ℝ) ≤ x - 2 ^ expo x)] at h3
    have h4 := (abs_le.1 h2).2
    rw [abs_of_nonneg (by linarith : (0 : ℝ) ≤ x - k * 2 ^ e)]
    linarith

theorem binary64_neg {z : ℝ} (hz : Spec.Binary64 z) : Spec.Binary64 (-z) := by
  obtain ⟨k, e, hk, he, he', rfl⟩ := hz
  exact ⟨-k, e, by rwa [abs_neg], he, he', by push_cast; ring⟩

theorem round53_nearest {x : ℝ} {z : ℝ} (hz : Spec.Binary64 z) : |x - round53 x| ≤ |x - z| := by
  unfold round53
  split_ifs with h
  · have := roundPos_nearest (x := -x) (by linarith) (binary64_neg hz)
    rw [show -x - roundPos (-x) = -(x - -roundPos (-x)) by ring, show -x - -z = -(x - z) by ring, abs_neg, abs_neg] at this
    exact this
  · exact roundPos_nearest (by linarith) hz

theorem overflow_eq : overflow = 2 ^ (1024 : ℤ) := by
  have : (1024 : ℤ) = ((1024 : ℕ) : ℤ) := rfl
  rw [this, zpow_natCast]; rfl

theorem roundPos_binary64 {x : ℝ} (hx : 0 ≤ x) (h : roundPos x < overflow) : Spec.Binary64 (roundPos x) := by
  rcases hx.eq_or_lt with h0 | h0
  · rw [← h0, roundPos_zero]
    exact ⟨0, 0, by norm_num, by norm_num, by norm_num, by simp⟩
  have hlo : -1022 ≤ expo x := le_max_right _ _
  have hk0 : 0 ≤ roundEven (x * 2 ^ (52 - expo x)) := by
    have := roundEven_mono (show (0 : ℝ) ≤ x * 2 ^ (52 - expo x) by positivity)
    have h0 := roundEven_int 0
    rw [Int.cast_zero] at h0
    rwa [h0] at this
  have hle := roundPos_le hx
  rcases hle.eq_or_lt with heq | hlt
  · -- rounded up to the next power of two
    rw [overflow_eq, heq] at h
    have h' := (zpow_lt_zpow_iff_right₀ (by norm_num : (1 : ℝ) < 2)).1 h
    refine ⟨2 ^ 52, expo x + 1 - 52, by norm_num, by omega, by omega, ?_⟩
    rw [heq, show ((2 ^ 52 : ℤ) : ℝ) = 2 ^ (52 : ℤ) by norm_num, ← zpow_add₀ (by norm_num)]; congr 1; ring
  · have hk : roundEven (x * 2 ^ (52 - expo x)) < 2 ^ 53 := by
      have e1 : (roundEven (x * 2 ^ (52 - expo x)) : ℝ) * 2 ^ (expo x - 52) < 2 ^ (53 : ℤ) * 2 ^ (expo x - 52) := by
        rw [← zpow_add₀ (by norm_num), show (53 : ℤ) + (expo x - 52) = expo x + 1 by ring]; exact hlt
      have e2 := lt_of_mul_lt_mul_right e1 (by positivity)
      have e3 : (roundEven (x * 2 ^ (52 - expo x)) : ℝ) < ((2 ^ 53 : ℤ) : ℝ) := by
        rw [show ((2 ^ 53 : ℤ) : ℝ) = 2 ^ (53 : ℤ) by norm_num]; exact e2
      exact_mod_cast e3
    refine ⟨roundEven (x * 2 ^ (52 - expo x)), expo x - 52, by rwa [abs_of_nonneg hk0], by omega, ?_, rfl⟩
    by_contra hc
    push Not at hc
    have h1 : (2 : ℝ) ^ expo x ≤ roundPos x := le_roundPos hlo (zpow_expo_le h0 (by omega)) rfl
    rw [overflow_eq] at h
    have h' := (zpow_lt_zpow_iff_right₀ (by norm_num : (1 : ℝ) < 2)).1 (h1.trans_lt h)
    omega

theorem round64_binary64 {x y : ℝ} (h : round64 x = (y : EReal)) : Spec.Binary64 y := by
  have h53 := round64_real h
  have hb : |y| < overflow := by
    unfold round64 at h
    split_ifs at h with h1 h2
    · simp at h
    · simp at h
    · rw [h53] at h1 h2; rw [abs_lt]; constructor <;> linarith
  unfold round53 at h53
  split_ifs at h53 with hx
  · rw [← h53] at hb ⊢
    rw [abs_neg] at hb
    exact binary64_neg (roundPos_binary64 (by linarith) (lt_of_le_of_lt (le_abs_self _) hb))
  · rw [← h53] at hb ⊢
    exact roundPos_binary64 (by linarith) (lt_of_le_of_lt (le_abs_self _) hb)

theorem binary64_lt {z : ℝ} (hz : Spec.Binary64 z) : |z| < overflow := by
  obtain ⟨k, e, hk, he, he', rfl⟩ := hz
  have hk' : |(k : ℝ)| < 2 ^ (53 : ℤ) := by
    have : |(k : ℝ)| < ((2 ^ 53 : ℤ) : ℝ) := by exact_mod_cast hk
    calc |(k : ℝ)| < ((2 ^ 53 : ℤ) : ℝ) := this
      _ = 2 ^ (53 : ℤ) := by norm_num
  rw [abs_mul, abs_of_pos (show (0 : ℝ) < 2 ^ e by positivity), overflow_eq]
  calc |(k : ℝ)| * 2 ^ e < 2 ^ (53 : ℤ) * 2 ^ e := by gcongr
    _ = 2 ^ (53 + e) := (zpow_add₀ (by norm_num) _ _).symm
    _ ≤ 2 ^ (1024 : ℤ) := zpow_le_zpow_right₀ (by norm_num) (by omega)

/-- The numbers of `f64` are those which rounding leaves unchanged. -/
theorem binary64_fixed {x : ℝ} (hx : Spec.Binary64 x) : round64 x = (x : EReal) := by
  have h := round53_nearest (x := x) hx
  rw [sub_self, abs_zero] at h
  have h' : x - round53 x = 0 := abs_eq_zero.1 (le_antisymm h (abs_nonneg _))
  exact round64_of (by linarith) (binary64_lt hx)

theorem roundEven_tie (x : ℝ) (j : ℤ) (hj : j ≠ roundEven x) (h : |x - j| = |x - (roundEven x : ℝ)|) :
    Even (roundEven x) ∧ |(roundEven x : ℝ) - j| = 1 := by
  have h1 := abs_roundEven x
  have h2 : (1 : ℝ) ≤ |(roundEven x : ℝ) - j| := by
    have : (1 : ℤ) ≤ |roundEven x - j| := Int.one_le_abs (sub_ne_zero.2 (Ne.symm hj))
    exact_mod_cast this
  have h3 : |(roundEven x : ℝ) - j| ≤ |(roundEven x : ℝ) - x| + |x - j| := abs_sub_le _ _ _
  rw [abs_sub_comm x (roundEven x : ℝ)] at h
  have h4 : |(roundEven x : ℝ) - x| = 1 / 2 := le_antisymm h1 (by linarith)
  refine ⟨?_, le_antisymm (by linarith) h2⟩
  have f1 := Int.floor_add_fract x
  have f2 := Int.fract_nonneg x
  have f3 := Int.fract_lt_one x
  unfold roundEven at h4 ⊢
  split_ifs at h4 ⊢ with a b c
  · exfalso
    rw [abs_of_nonpos (by linarith)] at h4; linarith
  · exfalso
    push_cast at h4
    rw [abs_of_nonneg (by linarith)] at h4; linarith
  · exact c
  · rw [Int.even_add_one]; exact c

theorem roundPos_tie {x : ℝ} (hx : 0 ≤ x) {z : ℝ} (hz : Spec.Binary64 z) (hne : z ≠ roundPos x) (h : |x - z| = |x - roundPos x|) :
    ∃ k e : ℤ, Even k ∧ roundPos x = k * 2 ^ e ∧ |roundPos x - z| = 2 ^ e := by
  rcases hx.eq_or_lt with h0 | hxp
  · exfalso
    rw [← h0, roundPos_zero] at h hne
    simp only [sub_self, abs_zero] at h
    exact hne (by have := abs_eq_zero.1 h; linarith)
  obtain ⟨k, e, hk, he, _, rfl⟩ := hz
  have hp : (0 : ℝ) < 2 ^ (expo x - 52) := by positivity
  have ex : x * 2 ^ (52 - expo x) * 2 ^ (expo x - 52) = x := by
    rw [mul_assoc, ← zpow_add₀ (by norm_num)]; simp
  by_cases hge : expo x - 52 ≤ e
  · obtain ⟨n, hn⟩ := Int.le.dest hge
    have ez : (k : ℝ) * 2 ^ e = (k * 2 ^ n : ℤ) * 2 ^ (expo x - 52) := by
      rw [← hn, add_comm, zpow_add₀ (by norm_num), ← mul_assoc, zpow_natCast]; push_cast; rfl
    rw [ez] at h hne ⊢
    have hj : k * 2 ^ n ≠ roundEven (x * 2 ^ (52 - expo x)) := fun e => hne (by rw [e]; rfl)
    have h' : |x * 2 ^ (52 - expo x) - (k * 2 ^ n : ℤ)| = |x * 2 ^ (52 - expo x) - (roundEven (x * 2 ^ (52 - expo x)) : ℝ)| := by
      have e1 : x - (k * 2 ^ n : ℤ) * 2 ^ (expo x - 52) = (x * 2 ^ (52 - expo x) - (k * 2 ^ n : ℤ)) * 2 ^ (expo x - 52) := by
        rw [sub_mul, ex]
      have e2 : x - roundPos x = (x * 2 ^ (52 - expo x) - (roundEven (x * 2 ^ (52 - expo x)) : ℝ)) * 2 ^ (expo x - 52) := by
        rw [sub_mul, ex]; rfl
      rw [e1, e2, abs_mul, abs_mul] at h
      exact mul_right_cancel₀ (abs_pos.2 hp.ne').ne' h
    obtain ⟨hev, hd⟩ := roundEven_tie _ _ hj h'
    refine ⟨_, _, hev, rfl, ?_⟩
    have e3 : roundPos x - (k * 2 ^ n : ℤ) * 2 ^ (expo x - 52)
        = ((roundEven (x * 2 ^ (52 - expo x)) : ℝ) - (k * 2 ^ n : ℤ)) * 2 ^ (expo x - 52) := by rw [sub_mul]; rfl
    rw [e3, abs_mul, hd, one_mul, abs_of_pos hp]
  · exfalso
    push Not at hge
    have hgt : -1022 < expo x := by omega
    have h1 := zpow_expo_le hxp hgt
    have h2 : |(k : ℝ) * 2 ^ e| < 2 ^ expo x := by
      have hk' : |(k : ℝ)| < 2 ^ (53 : ℤ) := by
        have : |(k : ℝ)| < ((2 ^ 53 : ℤ) : ℝ) := by exact_mod_cast hk
        calc |(k : ℝ)| < ((2 ^ 53 : ℤ) : ℝ) := this
          _ = 2 ^ (53 : ℤ) := by norm_num
      rw [abs_mul, abs_of_pos (show (0 : ℝ) < 2 ^ e by positivity)]
      calc |(k : ℝ)| * 2 ^ e < 2 ^ (53 : ℤ) * 2 ^ e := by gcongr
        _ = 2 ^ (53 + e) := (zpow_add₀ (by norm_num) _ _).symm
        _ ≤ 2 ^ expo x := zpow_le_zpow_right₀ (by norm_num) (by omega)
    have h3 := abs_roundEven_le (x * 2 ^ (52 - expo x)) (2 ^ 52)
    have h3' := mul_le_mul_of_nonneg_right h3 hp.le
    have e3 : ((2 ^ 52 : ℤ) : ℝ) * 2 ^ (expo x - 52) = 2 ^ expo x := by
      rw [show ((2 ^ 52 : ℤ) : ℝ) = 2 ^ (52 : ℤ) by norm_num, ← zpow_add₀ (by norm_num)]; congr 1; ring
    rw [← abs_of_pos hp, ← abs_mul, ← abs_mul, sub_mul, sub_mul, ex, e3, abs_of_nonneg (by linarith : (0 : ℝ) ≤ x - 2 ^ expo x)] at h3'
    have h3'' : |x - roundPos x| ≤ x - 2 ^ expo x := h3'
    have h4 := (abs_lt.1 h2).2
    rw [abs_of_nonneg (by linarith : (0 : ℝ) ≤ x - k * 2 ^ e)] at h
    linarith

theorem round64_tie {x y z : ℝ} (h : round64 x = (y : EReal)) (hz : Spec.Binary64 z) (hne : z ≠ y) (ht : |x - z| = |x - y|) :
    ∃ k e : ℤ, Even k ∧ y = k * 2 ^ e ∧ |y - z| = 2 ^ e := by
  have h53 := round64_real h
  unfold round53 at h53
  split_ifs at h53 with hx
  · subst h53
    obtain ⟨k, e, hk, h1, h2⟩ := roundPos_tie (x := -x) (by linarith) (binary64_neg hz) (fun e => hne (by rw [← e]; ring)) (by
      rw [show -x - -z = -(x - z) by ring, show -x - roundPos (-x) = -(x - -roundPos (-x)) by ring, abs_neg, abs_neg]; exact ht)
    refine ⟨-k, e, hk.neg, by rw [h1]; push_cast; ring, ?_⟩
    rw [← h2, show roundPos (-x) - -z = -(-roundPos (-x) - z) by ring, abs_neg]
  · subst h53
    exact roundPos_tie (by linarith) hz hne ht

/-- The least number rounded to `+∞`. -/
noncomputable def overflowBound : ℝ := 2 ^ (1024 : ℤ) - 2 ^ (970 : ℤ)

theorem overflowBound_eq : overflowBound = (2 ^ 54 - 1) * 2 ^ (970 : ℤ) := by
  unfold overflowBound
  rw [sub_mul, one_mul, show (2 : ℝ) ^ 54 = 2 ^ (54 : ℤ) by norm_num, ← zpow_add₀ (by norm_num)]; norm_num

theorem expo_overflowBound {x : ℝ} (h1 : (2 : ℝ) ^ (1023 : ℤ) ≤ x) (h2 : x < 2 ^ (1024 : ℤ)) : expo x = 1023 :=
  expo_eq (by norm_num) h1 (by simpa using h2)

theorem roundPos_overflow {x : ℝ} (hx : 0 ≤ x) : overflow ≤ roundPos x ↔ overflowBound ≤ x := by
  have hP : (0 : ℝ) < 2 ^ (970 : ℤ) := by positivity
  have e1023 : (2 : ℝ) ^ (1023 : ℤ) = 2 ^ 53 * 2 ^ (970 : ℤ) := by
    rw [show (2 : ℝ) ^ 53 = 2 ^ (53 : ℤ) by norm_num, ← zpow_add₀ (by norm_num)]; norm_num
  have e1024 : (2 : ℝ) ^ (1024 : ℤ) = 2 ^ 54 * 2 ^ (970 : ℤ) := by
    rw [show (2 : ℝ) ^ 54 = 2 ^ (54 : ℤ) by norm_num, ← zpow_add₀ (by norm_num)]; norm_num
  have e971 : (2 : ℝ) ^ (1023 - 52 : ℤ) = 2 * 2 ^ (970 : ℤ) := by
    rw [show ((1023 : ℤ) - 52) = 1 + 970 by norm_num, zpow_add₀ (by norm_num)]; norm_num
  have einv : (2 : ℝ) ^ (970 : ℤ) * 2 ^ (52 - 1023 : ℤ) = 1 / 2 := by
    rw [← zpow_add₀ (by norm_num)]; norm_num
  have hb1 : (2 : ℝ) ^ (1023 : ℤ) ≤ overflowBound := by rw [overflowBound_eq, e1023]; gcongr; norm_num
  have hb2 : overflowBound < (2 : ℝ) ^ (1024 : ℤ) := by rw [overflowBound_eq, e1024]; gcongr; norm_num
  rw [overflow_eq]
  constructor
  · intro h
    by_contra hc
    push Not at hc
    by_cases hlow : x < (2 : ℝ) ^ (1023 : ℤ)
    · have := roundPos_mono hx hlow.le
      rw [roundPos_zpow (by norm_num)] at this
      have h' : (2 : ℝ) ^ (1023 : ℤ) < 2 ^ (1024 : ℤ) := zpow_lt_zpow_right₀ (by norm_num) (by norm_num)
      exact absurd (h.trans this) (not_le.2 h')
    · push Not at hlow
      have he := expo_overflowBound hlow (hc.trans hb2)
      unfold roundPos at h
      rw [he, e971, e1024] at h
      have hlt : x * (2 : ℝ) ^ (52 - 1023 : ℤ) < 2 ^ 53 - 1 / 2 := by
        have hpos : (0 : ℝ) < 2 ^ (52 - 1023 : ℤ) := by positivity
        have := mul_lt_mul_of_pos_right hc hpos
        rw [overflowBound_eq, mul_assoc, einv] at this
        refine this.trans_le ?_
        norm_num
      have hr : roundEven (x * (2 : ℝ) ^ (52 - 1023 : ℤ)) < 2 ^ 53 := by
        have h1 := abs_roundEven (x * (2 : ℝ) ^ (52 - 1023 : ℤ))
        have h2 := (abs_le.1 h1).2
        have h3 : (roundEven (x * (2 : ℝ) ^ (52 - 1023 : ℤ)) : ℝ) < ((2 ^ 53 : ℤ) : ℝ) := by push_cast; linarith
        exact_mod_cast h3
      have hr' : (roundEven (x * (2 : ℝ) ^ (52 - 1023 : ℤ)) : ℝ) < 2 ^ 53 := by exact_mod_cast hr
      have : (roundEven (x * (2 : ℝ) ^ (52 - 1023 : ℤ)) : ℝ) * (2 * 2 ^ (970 : ℤ)) < 2 ^ 53 * (2 * 2 ^ (970 : ℤ)) := by gcongr
      have e : (2 : ℝ) ^ 53 * (2 * 2 ^ (970 : ℤ)) = 2 ^ 54 * 2 ^ (970 : ℤ) := by ring
      rw [e] at this
      exact absurd h (not_le.2 this)
  · intro h
    refine le_trans ?_ (roundPos_mono ((zpow_pos (by norm_num : (0 : ℝ) < 2) (1023 : ℤ)).le.trans hb1) h)
    have he := expo_overflowBound hb1 hb2
    unfold roundPos
    rw [he, e971, e1024]
    have hx' : overflowBound * (2 : ℝ) ^ (52 - 1023 : ℤ) = 2 ^ 53 - 1 / 2 := by
      rw [overflowBound_eq, mul_assoc, einv]; norm_num
    have hfl : ⌊((2 : ℝ) ^ 53 - 1 / 2)⌋ = 2 ^ 53 - 1 := by rw [Int.floor_eq_iff]; norm_num
    have hrd : roundEven ((2 : ℝ) ^ 53 - 1 / 2) = 2 ^ 53 := by
      unfold roundEven Int.fract
      rw [hfl]
      have e1 : (2 : ℝ) ^ 53 - 1 / 2 - ((2 ^ 53 - 1 : ℤ) : ℝ) = 1 / 2 := by push_cast; norm_num
      have hodd : ¬ Even ((2 : ℤ) ^ 53 - 1) := by decide
      rw [e1, if_neg (lt_irrefl _), if_neg (lt_irrefl _), if_neg hodd]; norm_num
    rw [hx', hrd, Int.cast_pow, Int.cast_ofNat, show (2 : ℝ) ^ 54 = 2 ^ 53 * 2 by norm_num, mul_assoc]

theorem round64_top {x : ℝ} : round64 x = ⊤ ↔ overflowBound ≤ x := by
  have hO := one_lt_overflow
  have hB : 0 < overflowBound := by
    by_contra hc
    have := (roundPos_overflow le_rfl).2 (not_lt.1 hc)
    rw [roundPos_zero] at this
    linarith
  have h1 : round64 x = ⊤ ↔ overflow ≤ round53 x := by
    unfold round64
    split_ifs with h h'
    · simp [h]
    · simp [h]
    · simp [h]
  rw [h1]
  unfold round53
  split_ifs with h
  · have := roundPos_nonneg (x := -x) (by linarith)
    constructor
    · intro h'; linarith
    · intro h'; linarith
  · exact roundPos_overflow (by linarith)

end Qcd
