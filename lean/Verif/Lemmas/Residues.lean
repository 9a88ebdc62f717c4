import Verif.Lemmas.Accuracy
import Verif.Model.ComplexFloats

/-! # Lemmas on residues in floating-point arithmetic -/

namespace Qcd
open Fl Spec

theorem binary64_le {z : ℝ} (hz : Binary64 z) : |z| ≤ 2 ^ (1024 : ℤ) - 2 ^ (971 : ℤ) := by
  obtain ⟨k, e, hk, he, he', rfl⟩ := hz
  have hk' : |(k : ℝ)| ≤ 2 ^ (53 : ℤ) - 1 := by
    have h1 : |k| ≤ 2 ^ 53 - 1 := by omega
    have h2 : ((|k| : ℤ) : ℝ) ≤ ((2 ^ 53 - 1 : ℤ) : ℝ) := by exact_mod_cast h1
    rw [Int.cast_abs] at h2
    refine h2.trans (le_of_eq ?_)
    push_cast; norm_num
  rw [abs_mul, abs_of_pos (show (0 : ℝ) < 2 ^ e by positivity)]
  calc |(k : ℝ)| * 2 ^ e ≤ (2 ^ (53 : ℤ) - 1) * 2 ^ (971 : ℤ) := by
        refine mul_le_mul hk' (zpow_le_zpow_right₀ (by norm_num) he') (by positivity) ?_
        norm_num
    _ = _ := by rw [sub_mul, one_mul, ← zpow_add₀ (by norm_num)]; norm_num

/-- Finite results. -/
theorem round64_finite {x : ℝ} (h : |x| < 2 ^ (1024 : ℤ) - 2 ^ (970 : ℤ)) : ∃ y : ℝ, round64 x = (y : EReal) := by
  have hO := one_lt_overflow
  have h1 : roundPos (|x|) < overflow := by
    by_contra hc
    have := (roundPos_overflow (abs_nonneg x)).1 (not_lt.1 hc)
    unfold overflowBound at this
    linarith
  exact ⟨round53 x, round64_of rfl (by rw [round53_abs]; exact h1)⟩

/-- Beyond `2^14` a number less than `2^-39` does not change a number of `f64`. -/
theorem absorbed {z d : ℝ} (hz : Binary64 z) (h : 2 ^ (14 : ℤ) < |z|) (hd : |d| < 2 ^ (-39 : ℤ)) : round64 (z + d) = (z : EReal) := by
  have hzl := binary64_le hz
  have hbig : (1 : ℝ) < 2 ^ (970 : ℤ) := one_lt_zpow₀ (by norm_num) (by norm_num)
  have e971 : (2 : ℝ) ^ (971 : ℤ) = 2 * 2 ^ (970 : ℤ) := by rw [← zpow_one_add₀ (by norm_num)]; norm_num
  have hd1 : |d| < 1 := hd.trans (by norm_num)
  obtain ⟨y, hy⟩ := round64_finite (x := z + d) (by
    have := abs_add_le z d
    rw [e971] at hzl
    have aux : ∀ A B s t v : ℝ, s ≤ A - 2 * B → 1 < B → t < 1 → v ≤ s + t → v < A - B := fun A B s t v h1 h2 h3 h4 => by linarith
    exact aux _ _ _ _ _ hzl hbig hd1 this)
  have hyb := round64_binary64 hy
  have hn := round53_nearest (x := z + d) hz
  rw [round64_real hy, add_sub_cancel_left] at hn
  have hyz : |y - z| < 2 ^ (-38 : ℤ) := by
    have h1 := abs_sub_abs_le_abs_sub (y - z) (y - (z + d))
    have h2 : y - z - (y - (z + d)) = d := by ring
    rw [h2, abs_sub_comm y (z + d)] at h1
    have : (2 : ℝ) ^ (-38 : ℤ) = 2 * 2 ^ (-39 : ℤ) := by norm_num
    linarith
  have hsmall : (2 : ℝ) ^ (-38 : ℤ) < 1 := by norm_num
  have h14 : (2 : ℝ) ^ (14 : ℤ) = 16384 := by norm_num
  -- the absolute values
  have hX := roundPos_of_representable (binary64_fixed hz)
  have hY := roundPos_of_representable (binary64_fixed hyb)
  have hXY : |(|y|) - (|z|)| < 2 ^ (-38 : ℤ) := (abs_abs_sub_abs_le y z).trans_lt hyz
  have hP : roundPos (2 ^ (14 : ℤ)) = 2 ^ (14 : ℤ) := roundPos_zpow (by norm_num)
  have hgap : ∀ a b : ℝ, 2 ^ (14 : ℤ) ≤ a → a < b → roundPos a = a → roundPos b = b → a + 2 ^ (-38 : ℤ) ≤ b := by
    intro a b ha hab h1 h2
    have ha0 : 0 < a := by rw [h14] at ha; linarith
    have hg := representable_gap ha0 hab h1 h2
    have he : 14 ≤ expo a := by
      have := expo_mono (by positivity : (0 : ℝ) < 2 ^ (14 : ℤ)) ha
      rwa [expo_eq (by norm_num) (le_refl ((2 : ℝ) ^ (14 : ℤ))) (zpow_lt_zpow_right₀ (by norm_num) (by norm_num))] at this
    have : (2 : ℝ) ^ (-38 : ℤ) ≤ 2 ^ (expo a - 52) := zpow_le_zpow_right₀ (by norm_num) (by omega)
    linarith
  rw [abs_lt] at hXY
  have hzg := hgap _ _ le_rfl h hP hX
  have habs : |y| = |z| := by
    rcases lt_trichotomy (|y|) (|z|) with hc | hc | hc
    · have hy14 : (2 : ℝ) ^ (14 : ℤ) ≤ |y| := by linarith
      have := hgap _ _ hy14 hc hY hX
      linarith
    · exact hc
    · have := hgap _ _ h.le hc hX hY
      linarith
  rcases abs_eq_abs.1 habs with hc | hc
  · rw [hy, hc]
  · exfalso
    rw [hc, show -z - z = -2 * z by ring, abs_mul] at hyz
    norm_num at hyz
    linarith

/-- The step of `compute_residue`. -/
theorem step_value : ∃ e : ℝ, round64 (1 / 10 ^ 12) = (e : EReal) ∧ 2 ^ (-40 : ℤ) < e ∧ e < 2 ^ (-39 : ℤ) := by
  obtain ⟨d, hd, h⟩ := round64_rel (x := 1 / 10 ^ 12)
    (by
      rw [abs_of_pos (by norm_num)]
      refine (zpow_le_zpow_right₀ (by norm_num) (by norm_num : (-1022 : ℤ) ≤ -40)).trans ?_
      norm_num)
    (by
      rw [abs_of_pos (by norm_num)]
      refine le_trans ?_ (zpow_le_zpow_right₀ (by norm_num) (by norm_num : (0 : ℤ) ≤ 1023))
      norm_num)
  refine ⟨_, h, ?_, ?_⟩ <;> (rw [abs_le] at hd; norm_num at hd ⊢; nlinarith)

/-- Up to `2^14` a number larger than `2^-40` changes a number of `f64` in one of the two directions. -/
theorem not_absorbed {z d : ℝ} (h : |z| ≤ 2 ^ (14 : ℤ)) (hd : 2 ^ (-40 : ℤ) < d) :
    round64 (z + d) ≠ (z : EReal) ∨ round64 (z - d) ≠ (z : EReal) := by
  by_contra hc
  push Not at hc
  obtain ⟨h1, h2⟩ := hc
  have hz := round64_binary64 h1
  have g : ∀ w, round64 w = (z : EReal) → ∀ v, Binary64 v → |w - z| ≤ |w - v| := fun w hw v hv => by
    rw [← round64_real hw]; exact round53_nearest hv
  have hd0 : 0 < d := lt_trans (by positivity) hd
  obtain ⟨n, e, hn, he, he', hze⟩ : ∃ n e : ℤ, |n| ≤ 2 ^ 53 ∧ -1074 ≤ e ∧ e ≤ -39 ∧ z = n * 2 ^ e := by
    obtain ⟨k, e, hk, he, _, hze⟩ := hz
    rcases le_or_gt e (-39) with hc | hc
    · exact ⟨k, e, hk.le, he, hc, hze⟩
    · obtain ⟨j, hj⟩ := Int.le.dest hc.le
      have hze' : z = ((k * 2 ^ j : ℤ) : ℝ) * 2 ^ (-39 : ℤ) := by
        rw [hze, ← hj, zpow_add₀ (by norm_num), zpow_natCast, Int.cast_mul, Int.cast_pow, Int.cast_ofNat]; ring
      refine ⟨k * 2 ^ j, -39, ?_, by norm_num, le_rfl, hze'⟩
      rw [hze', abs_mul, abs_of_pos (by positivity : (0 : ℝ) < 2 ^ (-39 : ℤ))] at h
      have h2 : |((k * 2 ^ j : ℤ) : ℝ)| ≤ 2 ^ 53 := by
        have e3 : (2 : ℝ) ^ (14 : ℤ) = 2 ^ 53 * 2 ^ (-39 : ℤ) := by norm_num
        rw [e3] at h
        exact le_of_mul_le_mul_right h (by positivity)
      exact_mod_cast h2
  have ht : (2 : ℝ) ^ e ≤ 2 * d := by
    have h1 : (2 : ℝ) ^ e ≤ 2 ^ (-39 : ℤ) := zpow_le_zpow_right₀ (by norm_num) he'
    have : (2 : ℝ) ^ (-39 : ℤ) = 2 * 2 ^ (-40 : ℤ) := by norm_num
    linarith
  have ht' : (2 : ℝ) ^ e < 2 * d := by
    have h1 : (2 : ℝ) ^ e ≤ 2 ^ (-39 : ℤ) := zpow_le_zpow_right₀ (by norm_num) he'
    have : (2 : ℝ) ^ (-39 : ℤ) = 2 * 2 ^ (-40 : ℤ) := by norm_num
    linarith
  have ht0 : (0 : ℝ) < 2 ^ e := by positivity
  have hlt : |d - 2 ^ e| < d := by rw [abs_lt]; constructor <;> linarith
  rcases le_or_gt n 0 with hc | hc
  · have hb : Binary64 (z + 2 ^ e) := ⟨n + 1, e, by rw [abs_le] at hn; rw [abs_lt]; constructor <;> omega, he, by omega, by
      rw [hze]; push_cast; ring⟩
    have := g _ h1 _ hb
    rw [add_sub_cancel_left, show z + d - (z + 2 ^ e) = d - 2 ^ e by ring, abs_of_pos hd0] at this
    linarith
  · have hb : Binary64 (z - 2 ^ e) := ⟨n - 1, e, by rw [abs_le] at hn; rw [abs_lt]; constructor <;> omega, he, by omega, by
      rw [hze]; push_cast; ring⟩
    have := g _ h2 _ hb
    rw [show z - d - z = -d by ring, show z - d - (z - 2 ^ e) = -(d - 2 ^ e) by ring, abs_neg, abs_neg, abs_of_pos hd0] at this
    linarith

variable {r : Rounding}

/-- A number minus itself. -/
theorem Fl.sub_self' (a : Fl r) : a - a = num 0 ∨ a - a = nan := by
  rw [sub_def]
  cases a with
  | nan => right; simp [Fl.add]
  | nz => left; simp [Fl.add, neg, isNeg, Fl.round, r.zero]
  | num x =>
    by_cases h0 : x = 0
    · subst h0; left; simp [Fl.add, neg, isNeg, Fl.round, r.zero]
    · induction x using EReal.rec with
      | bot => right; simp [Fl.add, neg]
      | top => right; simp [Fl.add, neg]
      | coe x =>
        left
        have hx : x ≠ 0 := fun h => h0 (by rw [h]; rfl)
        rw [show neg (num (x : EReal) : Fl r) = num ((-x : ℝ) : EReal) by simp [neg, hx]]
        have hs : (decide ((x : EReal) < 0) && decide (((-x : ℝ) : EReal) < 0)) = false := by
          rw [Bool.and_eq_false_iff, decide_eq_false_iff_not, decide_eq_false_iff_not]
          by_cases hneg : x < 0
          · right; rw [not_lt]; exact_mod_cast (by linarith : 0 ≤ -x)
          · left; rw [not_lt]; exact_mod_cast not_lt.1 hneg
        simp only [Fl.add, value_num, val_num, EReal.toReal_coe, isNeg]
        simp [Fl.round, r.zero, hs]
        exact fun h => h.le

theorem Fl.nan_add (a : Fl r) : (nan : Fl r) + a = nan := by rw [add_def]; simp [Fl.add]
theorem Fl.add_nan (a : Fl r) : a + (nan : Fl r) = nan := by rw [add_def]; simp [Fl.add]
theorem Fl.nan_mul (a : Fl r) : (nan : Fl r) * a = nan := by rw [mul_def]; simp [Fl.mul]
theorem Fl.mul_nan (a : Fl r) : a * (nan : Fl r) = nan := by rw [mul_def]; simp [Fl.mul]
theorem Fl.div_eq (a b : Fl r) : a / b = div a b := rfl
theorem Fl.nan_div (a : Fl r) : (nan : Fl r) / a = nan := by rw [Fl.div_eq]; simp [Fl.div]
theorem Fl.div_nan (a : Fl r) : a / (nan : Fl r) = nan := by rw [Fl.div_eq]; simp [Fl.div]
theorem Fl.sub_nan (a : Fl r) : a - (nan : Fl r) = nan := by rw [sub_def]; simp [Fl.add, neg]
theorem Fl.inv_nan : (nan : Fl r)⁻¹ = nan := by rw [inv_def]; simp [Fl.div]
theorem Fl.inv_zero' : (num 0 : Fl r)⁻¹ = num ⊤ := by rw [inv_def]; simp [Fl.div, isNeg, one_ne_top, one_ne_bot]

theorem Fl.top_mul {x : ℝ} (hx : 0 < x) : (num ⊤ : Fl r) * num (x : EReal) = num ⊤ := by
  have h : ¬ ((x : EReal) < 0) := not_lt.2 (by exact_mod_cast hx.le)
  rw [mul_def]; simp [Fl.mul, isNeg, hx.ne', h]

end Qcd
