import Mathlib.Data.Int.Log
import Mathlib.Algebra.Order.Round
import Mathlib.Analysis.SpecialFunctions.Log.Basic
import Mathlib.Tactic.Linarith
import Mathlib.Tactic.Positivity
import Verif.Model.Floats

/-! # Binary64

The rounding of the type `f64`: to the nearest number, ties to even, 53 bits, exponents from -1022 to 1023, subnormal numbers and
overflow. The exponential and the logarithm are taken to be correctly rounded; the theorems which use them hold for
all roundings of `Rounding`. -/

namespace Qcd

/-- The nearest integer, ties to even (types.rs l.8-9 (`R` is `f64`)). -/
noncomputable def roundEven (x : ℝ) : ℤ := open Classical in
  if Int.fract x < 1 / 2 then ⌊x⌋ else if 1 / 2 < Int.fract x then ⌊x⌋ + 1 else if Even ⌊x⌋ then ⌊x⌋ else ⌊x⌋ + 1

/-- The exponent of the last binade not above `x`, not below that of the least normal number (types.rs l.8-9 (`R` is `f64`)). -/
noncomputable def expo (x : ℝ) : ℤ := max (Int.log 2 x) (-1022)

/-- `x ≥ 0` to 53 bits, exponent not bounded above (types.rs l.8-9 (`R` is `f64`)). -/
noncomputable def roundPos (x : ℝ) : ℝ := (roundEven (x * 2 ^ (52 - expo x)) : ℝ) * 2 ^ (expo x - 52)

/-- `x` to 53 bits, exponent not bounded above (types.rs l.8-9 (`R` is `f64`)). -/
noncomputable def round53 (x : ℝ) : ℝ := open Classical in if x < 0 then -roundPos (-x) else roundPos x

/-- The least power of two which is too large (types.rs l.8-9 (`R` is `f64`)). -/
noncomputable def overflow : ℝ := 2 ^ 1024

/-- The rounding of `f64` (types.rs l.8-9 (`R` is `f64`)). -/
noncomputable def round64 (x : ℝ) : EReal := open Classical in
  if overflow ≤ round53 x then ⊤ else if round53 x ≤ -overflow then ⊥ else (round53 x : EReal)

theorem one_lt_overflow : 1 < overflow := by unfold overflow; exact one_lt_pow₀ (by norm_num) (by norm_num)

theorem floor_le_roundEven (x : ℝ) : ⌊x⌋ ≤ roundEven x := by unfold roundEven; split_ifs <;> omega
theorem roundEven_le_floor (x : ℝ) : roundEven x ≤ ⌊x⌋ + 1 := by unfold roundEven; split_ifs <;> omega

theorem roundEven_mono : Monotone roundEven := by
  intro x y h
  have hf := Int.floor_mono h
  rcases hf.lt_or_eq with hlt | heq
  · have := floor_le_roundEven y; have := roundEven_le_floor x; omega
  · have hfr : Int.fract x ≤ Int.fract y := by unfold Int.fract; rw [heq]; linarith
    unfold roundEven; rw [heq]
    split_ifs <;> first | omega | (exfalso; linarith)

theorem roundEven_int (n : ℤ) : roundEven n = n := by unfold roundEven; simp

theorem abs_roundEven (x : ℝ) : |(roundEven x : ℝ) - x| ≤ 1 / 2 := by
  have h1 := Int.floor_add_fract x
  have h2 := Int.fract_nonneg x
  have h3 := Int.fract_lt_one x
  rw [abs_le]
  unfold roundEven
  split_ifs <;> push_cast <;> constructor <;> linarith

theorem roundPos_zero : roundPos 0 = 0 := by
  have := roundEven_int 0
  simp only [Int.cast_zero] at this
  unfold roundPos; simp [this]

theorem expo_one : expo 1 = 0 := by unfold expo; simp

theorem roundPos_one : roundPos 1 = 1 := by
  have h : roundEven (2 ^ (52 : ℤ)) = 2 ^ 52 := by
    have := roundEven_int (2 ^ 52)
    push_cast at this
    exact_mod_cast this
  unfold roundPos
  rw [expo_one, one_mul, sub_zero, h, zero_sub]
  norm_num [zpow_neg]

theorem expo_mono {x y : ℝ} (hx : 0 < x) (h : x ≤ y) : expo x ≤ expo y := max_le_max (Int.log_mono_right hx h) le_rfl

theorem lt_zpow_expo (x : ℝ) (hx : 0 ≤ x) : x < 2 ^ (expo x + 1) := by
  have h := Int.lt_zpow_succ_log_self (b := 2) (by norm_num) x
  refine h.trans_le ?_
  have : Int.log 2 x ≤ expo x := le_max_left _ _
  exact_mod_cast zpow_le_zpow_right₀ (by norm_num : (1 : ℝ) ≤ 2) (by omega)

theorem roundPos_nonneg {x : ℝ} (hx : 0 ≤ x) : 0 ≤ roundPos x := by
  unfold roundPos
  have : 0 ≤ roundEven (x * 2 ^ (52 - expo x)) := by
    have := roundEven_mono (show (0 : ℝ) ≤ x * 2 ^ (52 - expo x) by positivity)
    have h0 := roundEven_int 0
    rw [Int.cast_zero] at h0
    rwa [h0] at this
  have : (0 : ℝ) ≤ (roundEven (x * 2 ^ (52 - expo x)) : ℝ) := by exact_mod_cast this
  positivity

theorem roundEven_pow (n : ℕ) : roundEven (2 ^ n) = 2 ^ n := by
  have := roundEven_int (2 ^ n)
  push_cast at this
  exact this

theorem roundPos_le {x : ℝ} (hx : 0 ≤ x) : roundPos x ≤ 2 ^ (expo x + 1) := by
  have h : x * 2 ^ (52 - expo x) ≤ 2 ^ 53 := by
    have := (lt_zpow_expo x hx).le
    calc x * 2 ^ (52 - expo x) ≤ 2 ^ (expo x + 1) * 2 ^ (52 - expo x) := by gcongr
      _ = 2 ^ (53 : ℤ) := by rw [← zpow_add₀ (by norm_num)]; congr 1; ring
      _ = 2 ^ 53 := by norm_cast
  have h' := roundEven_mono h
  rw [roundEven_pow] at h'
  have h'' : (roundEven (x * 2 ^ (52 - expo x)) : ℝ) ≤ 2 ^ 53 := by exact_mod_cast h'
  unfold roundPos
  calc _ ≤ (2 : ℝ) ^ 53 * 2 ^ (expo x - 52) := by gcongr
    _ = 2 ^ (53 : ℤ) * 2 ^ (expo x - 52) := by norm_cast
    _ = _ := by rw [← zpow_add₀ (by norm_num)]; congr 1; ring

theorem le_roundPos {x : ℝ} {e : ℤ} (he : -1022 ≤ e) (hx : (2 : ℝ) ^ e ≤ x) (hlog : expo x = e) : (2 : ℝ) ^ e ≤ roundPos x := by
  have h : 2 ^ 52 ≤ x * 2 ^ (52 - e) := by
    calc (2 : ℝ) ^ 52 = 2 ^ (52 : ℤ) := by norm_cast
      _ = 2 ^ e * 2 ^ (52 - e) := by rw [← zpow_add₀ (by norm_num)]; congr 1; ring
      _ ≤ _ := by gcongr
  have h' := roundEven_mono h
  rw [roundEven_pow] at h'
  have h'' : (2 : ℝ) ^ 52 ≤ (roundEven (x * 2 ^ (52 - e)) : ℝ) := by exact_mod_cast h'
  unfold roundPos
  rw [hlog]
  calc (2 : ℝ) ^ e = 2 ^ (52 : ℤ) * 2 ^ (e - 52) := by rw [← zpow_add₀ (by norm_num)]; congr 1; ring
    _ = 2 ^ 52 * 2 ^ (e - 52) := by norm_cast
    _ ≤ _ := by gcongr

theorem zpow_expo_le {x : ℝ} (hx : 0 < x) (h : -1022 < expo x) : (2 : ℝ) ^ expo x ≤ x := by
  have : expo x = Int.log 2 x := by unfold expo at h ⊢; omega
  rw [this]
  exact_mod_cast Int.zpow_log_le_self (b := 2) (by norm_num) hx

theorem roundPos_mono {x y : ℝ} (hx : 0 ≤ x) (h : x ≤ y) : roundPos x ≤ roundPos y := by
  rcases hx.eq_or_lt with rfl | hx0
  · rw [roundPos_zero]; exact roundPos_nonneg h
  rcases (expo_mono hx0 h).eq_or_lt with he | he
  · unfold roundPos
    rw [← he]
    have h1 := roundEven_mono (show x * 2 ^ (52 - expo x) ≤ y * 2 ^ (52 - expo x) by gcongr)
    have h2 : (roundEven (x * 2 ^ (52 - expo x)) : ℝ) ≤ roundEven (y * 2 ^ (52 - expo x)) := by exact_mod_cast h1
    gcongr
  · have h1 : -1022 ≤ expo x := le_max_right _ _
    calc roundPos x ≤ 2 ^ (expo x + 1) := roundPos_le hx
      _ ≤ 2 ^ expo y := zpow_le_zpow_right₀ (by norm_num) (by omega)
      _ ≤ roundPos y := le_roundPos (by omega) (zpow_expo_le (hx0.trans_le h) (by omega)) rfl

theorem round53_mono : Monotone round53 := by
  intro x y h
  unfold round53
  split_ifs with h1 h2 h2
  · exact neg_le_neg (roundPos_mono (by linarith) (by linarith))
  · exact (neg_nonpos.2 (roundPos_nonneg (by linarith))).trans (roundPos_nonneg (by linarith))
  · linarith
  · exact roundPos_mono (by linarith) h

theorem round64_mono : Monotone round64 := by
  intro x y h
  have h' := round53_mono h
  unfold round64
  split_ifs <;> first | exact le_rfl | exact le_top | exact bot_le | exact_mod_cast h' | (exfalso; linarith)

theorem round64_of {x y : ℝ} (h : round53 x = y) (h' : |y| < overflow) : round64 x = (y : EReal) := by
  rw [abs_lt] at h'
  unfold round64
  rw [h, if_neg (by linarith), if_neg (by linarith)]

theorem round64_zero : round64 0 = 0 :=
  round64_of (by simp [round53, roundPos_zero]) (by rw [abs_zero]; linarith [one_lt_overflow])

theorem round64_one : round64 1 = 1 :=
  round64_of (by simp [round53, roundPos_one, not_lt.2 (zero_le_one (α := ℝ))]) (by rw [abs_one]; exact one_lt_overflow)

theorem expo_eq {x : ℝ} {e : ℤ} (he : -1022 ≤ e) (h1 : (2 : ℝ) ^ e ≤ x) (h2 : x < 2 ^ (e + 1)) : expo x = e := by
  have hx : 0 < x := lt_of_lt_of_le (by positivity) h1
  have e1 := (Int.zpow_le_iff_le_log (b := 2) (by norm_num) hx (x := e)).1 (by exact_mod_cast h1)
  have e2 := (Int.lt_zpow_iff_log_lt (b := 2) (by norm_num) hx (x := e + 1)).1 (by exact_mod_cast h2)
  unfold expo; omega

theorem roundPos_zpow {e : ℤ} (he : -1022 ≤ e) : roundPos (2 ^ e) = 2 ^ e := by
  have h := expo_eq he (le_refl ((2 : ℝ) ^ e)) (zpow_lt_zpow_right₀ (by norm_num) (by omega))
  unfold roundPos
  rw [h, ← zpow_add₀ (by norm_num), show e + (52 - e) = ((52 : ℕ) : ℤ) by push_cast; ring, zpow_natCast, roundEven_pow]
  rw [Int.cast_pow, Int.cast_ofNat, ← zpow_natCast, ← zpow_add₀ (by norm_num)]
  congr 1; push_cast; ring

theorem two_lt_overflow : 2 < overflow := by
  unfold overflow
  calc (2 : ℝ) = 2 ^ 1 := (pow_one 2).symm
    _ < 2 ^ 1024 := pow_lt_pow_right₀ (by norm_num) (by norm_num)

theorem round64_two : round64 2 = 2 := by
  have h := roundPos_zpow (e := 1) (by norm_num)
  rw [zpow_one] at h
  exact round64_of (by unfold round53; rw [if_neg (by norm_num)]; exact h)
    (by rw [abs_of_pos (by norm_num)]; exact two_lt_overflow)

/-- The rounding of `f64` satisfies the laws (types.rs l.8-9 (`R` is `f64`)). -/
noncomputable def binary64 : Rounding where
  rnd := round64
  exp x := round64 (Real.exp x)
  ln x := round64 (Real.log x)
  mono := round64_mono
  zero := round64_zero
  one := round64_one
  two := round64_two
  exp_mono := fun _ _ h => round64_mono (Real.exp_le_exp.2 h)
  exp_nonneg := fun x => round64_zero ▸ round64_mono (Real.exp_pos x).le
  exp_zero := by rw [Real.exp_zero]; exact round64_one

end Qcd
