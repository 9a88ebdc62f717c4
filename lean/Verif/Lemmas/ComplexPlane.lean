import Verif.Lemmas.ComplexMirror
import Verif.Lemmas.FloatThermalDensity
import Mathlib.Analysis.Real.Pi.Bounds
import Mathlib.Analysis.SpecialFunctions.Trigonometric.Bounds
import Mathlib.Analysis.Complex.ExponentialBounds

/-! # Lemmas: sizes of the computed complex numbers, off the real axis

`Below a k`: the number `a` is at most `2^k` in absolute value. `Amid a k l`: it is at least `2^-l` as well. Powers of two are numbers of the type, so
rounding does not change the bounds. -/

namespace Qcd
open Fl Spec FTD

def Below (a : Fl binary64) (k : ℕ) : Prop := ∃ u : ℝ, Is a u ∧ |u| ≤ 2 ^ k
def Amid (a : Fl binary64) (k l : ℕ) : Prop := ∃ u : ℝ, Is a u ∧ |u| ≤ 2 ^ k ∧ (2 ^ l)⁻¹ ≤ |u|

theorem b_two {k : ℕ} (h : k ≤ 900) : Binary64 (2 ^ k) := by exact_mod_cast b_pow (n := k) (by omega) (by omega)
theorem b_two_inv {l : ℕ} (h : l ≤ 900) : Binary64 (2 ^ l)⁻¹ := by
  have := b_pow (n := -(l : ℤ)) (by omega) (by omega)
  rwa [zpow_neg, zpow_natCast] at this

section
variable {a b : Fl binary64} {k l k' l' : ℕ} {y : ℝ}

theorem below_round (h : IsE a (binary64.rnd y)) (hy : |y| ≤ 2 ^ k) (hk : k ≤ 900 := by norm_num) : Below a k := by
  obtain ⟨h1, h2⟩ := within (b_two hk) hy
  exact ⟨rd y, h.trans (congrArg some h1), h2⟩

/-- A rounded number has the sign of the number. -/
theorem round_between (hy : |y| ≤ 2 ^ k) (hl : (2 ^ l)⁻¹ ≤ |y|) (hk : k ≤ 900) (hl' : l ≤ 900) :
    ∃ v : ℝ, round64 y = (v : EReal) ∧ |v| ≤ 2 ^ k ∧ (2 ^ l)⁻¹ ≤ |v| ∧ (0 < y → 0 < v) := by
  have hp : (0 : ℝ) < (2 ^ l)⁻¹ := by positivity
  rcases le_total 0 y with h | h
  · rw [abs_of_nonneg h] at hy hl
    obtain ⟨v, v1, v2, v3⟩ := between (b_two_inv hl') (b_two hk) hl hy
    have hv : 0 < v := by linarith
    exact ⟨v, v1, by rwa [abs_of_pos hv], by rwa [abs_of_pos hv], fun _ => hv⟩
  · rw [abs_of_nonpos h] at hy hl
    obtain ⟨v, v1, v2, v3⟩ := between (binary64_neg (b_two hk)) (binary64_neg (b_two_inv hl')) (by linarith : -2 ^ k ≤ y) (by linarith : y ≤ -(2 ^ l)⁻¹)
    have hv : v < 0 := by linarith
    exact ⟨v, v1, by rw [abs_of_neg hv]; linarith, by rw [abs_of_neg hv]; linarith, fun h' => absurd h' (not_lt.2 h)⟩

theorem amid_round (h : IsE a (binary64.rnd y)) (hy : |y| ≤ 2 ^ k) (hl : (2 ^ l)⁻¹ ≤ |y|) (hk : k ≤ 900 := by norm_num) (hl' : l ≤ 900 := by norm_num) :
    Amid a k l := by
  obtain ⟨v, v1, v2, v3, -⟩ := round_between hy hl hk hl'
  exact ⟨v, h.trans (congrArg some v1), v2, v3⟩

theorem Amid.below (h : Amid a k l) : Below a k := by
  obtain ⟨u, h1, h2, -⟩ := h
  exact ⟨u, h1, h2⟩

theorem Below.mono (h : Below a k) (hk : k ≤ k') : Below a k' := by
  obtain ⟨u, h1, h2⟩ := h
  exact ⟨u, h1, h2.trans (pow_le_pow_right₀ (by norm_num) hk)⟩

theorem Amid.mono (h : Amid a k l) (hk : k ≤ k') (hl : l ≤ l') : Amid a k' l' := by
  obtain ⟨u, h1, h2, h3⟩ := h
  exact ⟨u, h1, h2.trans (pow_le_pow_right₀ (by norm_num) hk), le_trans (inv_anti₀ (by positivity) (pow_le_pow_right₀ (by norm_num) hl)) h3⟩

theorem Below.neg (h : Below a k) : Below (-a) k := by
  obtain ⟨u, h1, h2⟩ := h
  exact ⟨-u, value_neg h1, by rwa [abs_neg]⟩

theorem Amid.neg (h : Amid a k l) : Amid (-a) k l := by
  obtain ⟨u, h1, h2, h3⟩ := h
  exact ⟨-u, value_neg h1, by rwa [abs_neg], by rwa [abs_neg]⟩

theorem Below.add (h : Below a k) (h' : Below b k') (hk : max k k' + 1 ≤ 900 := by norm_num) : Below (a + b) (max k k' + 1) := by
  obtain ⟨u, h1, h2⟩ := h.mono (le_max_left k k')
  obtain ⟨v, g1, g2⟩ := h'.mono (le_max_right k k')
  exact below_round (value_add h1 g1) ((abs_add_le u v).trans (by rw [pow_succ]; linarith)) hk

theorem Below.sub (h : Below a k) (h' : Below b k') (hk : max k k' + 1 ≤ 900 := by norm_num) : Below (a - b) (max k k' + 1) := h.add h'.neg hk

theorem Below.mul (h : Below a k) (h' : Below b k') (hk : k + k' ≤ 900 := by norm_num) : Below (a * b) (k + k') := by
  obtain ⟨u, h1, h2⟩ := h
  obtain ⟨v, g1, g2⟩ := h'
  refine below_round (value_mul h1 g1) ?_ hk
  rw [abs_mul, pow_add]
  gcongr

theorem Amid.mul (h : Amid a k l) (h' : Amid b k' l') (hk : k + k' ≤ 900 := by norm_num) (hl : l + l' ≤ 900 := by norm_num) :
    Amid (a * b) (k + k') (l + l') := by
  obtain ⟨u, h1, h2, h3⟩ := h
  obtain ⟨v, g1, g2, g3⟩ := h'
  refine amid_round (value_mul h1 g1) ?_ ?_ hk hl
  · rw [abs_mul, pow_add]
    gcongr
  · rw [abs_mul, pow_add, mul_inv]
    gcongr

theorem Below.div (h : Below a k) (h' : Amid b k' l') (hk : k + l' ≤ 900 := by norm_num) : Below (a / b) (k + l') := by
  obtain ⟨u, h1, h2⟩ := h
  obtain ⟨v, g1, -, g3⟩ := h'
  have hv : 0 < |v| := lt_of_lt_of_le (by positivity) g3
  refine below_round (Rel.is_div h1 g1 (abs_pos.1 hv)) ?_ hk
  rw [abs_div, div_le_iff₀ hv, pow_add, mul_assoc]
  have : 1 ≤ 2 ^ l' * |v| := by rwa [inv_le_iff_one_le_mul₀' (by positivity)] at g3
  nlinarith [pow_pos (show (0 : ℝ) < 2 by norm_num) k]

theorem Amid.div (h : Amid a k l) (h' : Amid b k' l') (hk : k + l' ≤ 900 := by norm_num) (hl : l + k' ≤ 900 := by norm_num) :
    Amid (a / b) (k + l') (l + k') := by
  obtain ⟨u, h1, h2, h3⟩ := h
  obtain ⟨v, g1, g2, g3⟩ := h'
  have hv : 0 < |v| := lt_of_lt_of_le (by positivity) g3
  refine amid_round (Rel.is_div h1 g1 (abs_pos.1 hv)) ?_ ?_ hk hl
  · rw [abs_div, div_le_iff₀ hv, pow_add, mul_assoc]
    have : 1 ≤ 2 ^ l' * |v| := by rwa [inv_le_iff_one_le_mul₀' (by positivity)] at g3
    nlinarith [pow_pos (show (0 : ℝ) < 2 by norm_num) k]
  · rw [abs_div, le_div_iff₀ hv, pow_add, mul_inv, mul_assoc]
    have : (2 ^ k' : ℝ)⁻¹ * |v| ≤ 1 := by rwa [inv_mul_le_iff₀ (by positivity), mul_one]
    have h0 : (0 : ℝ) < (2 ^ l)⁻¹ := by positivity
    nlinarith

/-- Constants. -/
theorem below_const {c : ℝ} (h : |c| ≤ 2 ^ k) (hk : k ≤ 900 := by norm_num) : Below (ofR c : Fl binary64) k :=
  below_round (value_round _ _) h hk

theorem amid_const {c : ℝ} (h : |c| ≤ 2 ^ k) (h' : (2 ^ l)⁻¹ ≤ |c|) (hk : k ≤ 900 := by norm_num) (hl : l ≤ 900 := by norm_num) : Amid (ofR c : Fl binary64) k l :=
  amid_round (value_round _ _) h h' hk hl

/-- Relative errors. -/
theorem round_half {y : ℝ} (hk : |y| ≤ 2 ^ 900) (hl : (2 ^ 900)⁻¹ ≤ |y|) : ∃ v : ℝ, round64 y = (v : EReal) ∧ |v - y| ≤ 2 * uu * |y| := by
  have h0 : 0 < |y| := lt_of_lt_of_le (by positivity) hl
  have := Run.of_round (a := Fl.round binary64 false y) (n := 0) (x := y) (B := |y|) (value_round _ _) le_rfl ⟨hl, hk⟩ le_rfl (by norm_num) (by simp)
  obtain ⟨v, v1, -, v2⟩ := this
  refine ⟨v, ?_, by linarith⟩
  exact Option.some.inj ((value_round (r := binary64) false y).symm.trans v1)

end

/-! ## Complex numbers -/

/-- Both parts are at most `2^k`. -/
def CBelow (a : CFl binary64) (k : ℕ) : Prop := Below a.re k ∧ Below a.im k
/-- The imaginary part is at least `2^-l`, too. -/
def COff (a : CFl binary64) (k l : ℕ) : Prop := Below a.re k ∧ Amid a.im k l

section
variable {a b : CFl binary64} {x : Fl binary64} {k l k' l' : ℕ}

theorem COff.below (h : COff a k l) : CBelow a k := ⟨h.1, h.2.below⟩
theorem CBelow.mono (h : CBelow a k) (hk : k ≤ k') : CBelow a k' := ⟨h.1.mono hk, h.2.mono hk⟩
theorem COff.mono (h : COff a k l) (hk : k ≤ k') (hl : l ≤ l') : COff a k' l' := ⟨h.1.mono hk, h.2.mono hk hl⟩
theorem CBelow.neg (h : CBelow a k) : CBelow (-a) k := ⟨h.1.neg, h.2.neg⟩
theorem CBelow.add (h : CBelow a k) (h' : CBelow b k') (hk : max k k' + 1 ≤ 900 := by norm_num) : CBelow (a + b) (max k k' + 1) :=
  ⟨h.1.add h'.1 hk, h.2.add h'.2 hk⟩
theorem CBelow.sub (h : CBelow a k) (h' : CBelow b k') (hk : max k k' + 1 ≤ 900 := by norm_num) : CBelow (a - b) (max k k' + 1) :=
  ⟨h.1.sub h'.1 hk, h.2.sub h'.2 hk⟩
theorem CBelow.mul (h : CBelow a k) (h' : CBelow b k') (hk : k + k' + 1 ≤ 900 := by norm_num) : CBelow (a * b) (k + k' + 1) := by
  have e : max (k + k') (k + k') + 1 = k + k' + 1 := by rw [max_self]
  have h1 := (h.1.mul h'.1 (by omega)).sub (h.2.mul h'.2 (by omega)) (by omega)
  have h2 := (h.1.mul h'.2 (by omega)).add (h.2.mul h'.1 (by omega)) (by omega)
  rw [e] at h1 h2
  exact ⟨h1, h2⟩
theorem CBelow.addR (h : CBelow a k) (h' : Below x k') (hk : max k k' + 1 ≤ 900 := by norm_num) : CBelow (a + x) (max k k' + 1) :=
  ⟨h.1.add h' hk, h.2.mono (by omega)⟩
theorem CBelow.subR (h : CBelow a k) (h' : Below x k') (hk : max k k' + 1 ≤ 900 := by norm_num) : CBelow (a - x) (max k k' + 1) :=
  ⟨h.1.sub h' hk, h.2.mono (by omega)⟩
theorem CBelow.mulR (h : CBelow a k) (h' : Below x k') (hk : k + k' ≤ 900 := by norm_num) : CBelow (a * x) (k + k') := ⟨h.1.mul h' hk, h.2.mul h' hk⟩
theorem CBelow.divR (h : CBelow a k) (h' : Amid x k' l') (hk : k + l' ≤ 900 := by norm_num) : CBelow (a / x) (k + l') := ⟨h.1.div h' hk, h.2.div h' hk⟩

theorem COff.addR (h : COff a k l) (h' : Below x k') (hk : max k k' + 1 ≤ 900 := by norm_num) : COff (a + x) (max k k' + 1) l :=
  ⟨h.1.add h' hk, h.2.mono (by omega) le_rfl⟩
theorem COff.subR (h : COff a k l) (h' : Below x k') (hk : max k k' + 1 ≤ 900 := by norm_num) : COff (a - x) (max k k' + 1) l :=
  ⟨h.1.sub h' hk, h.2.mono (by omega) le_rfl⟩
theorem COff.mulR (h : COff a k l) (h' : Amid x k' l') (hk : k + k' ≤ 900 := by norm_num) (hl : l + l' ≤ 900 := by norm_num) : COff (a * x) (k + k') (l + l') :=
  ⟨h.1.mul h'.below hk, h.2.mul h' hk hl⟩
theorem COff.divR (h : COff a k l) (h' : Amid x k' l') (hk : k + l' ≤ 900 := by norm_num) (hl : l + k' ≤ 900 := by norm_num) : COff (a / x) (k + l') (l + k') :=
  ⟨h.1.div h' hk, h.2.div h' hk hl⟩

/-- The number off the axis. -/
theorem COff.val (h : COff a k l) : ∃ w : ℂ, Is a.re w.re ∧ Is a.im w.im ∧ |w.re| ≤ 2 ^ k ∧ |w.im| ≤ 2 ^ k ∧ (2 ^ l)⁻¹ ≤ |w.im| ∧ w.im ≠ 0 := by
  obtain ⟨⟨u, h1, h2⟩, v, g1, g2, g3⟩ := h
  exact ⟨⟨u, v⟩, h1, g1, h2, g2, g3, abs_pos.1 (lt_of_lt_of_le (by positivity) g3)⟩

theorem COff.slit (h : COff a k l) : Slit a := by
  obtain ⟨w, h1, h2, -, -, -, h3⟩ := h.val
  exact ⟨w, h1, h2, Complex.mem_slitPlane_iff.2 (Or.inr h3)⟩

/-- The sum of the squares. -/
theorem COff.sq (h : COff a k l) (hk : 2 * k + 1 ≤ 900 := by norm_num) (hl : 2 * l ≤ 900 := by norm_num) :
    ∃ N : ℝ, Is (a.re * a.re + a.im * a.im) N ∧ N ≤ 2 ^ (2 * k + 1) ∧ (2 ^ (2 * l))⁻¹ ≤ N := by
  obtain ⟨w, h1, h2, h3, h4, h5, h6⟩ := h.val
  have b1 : |w.re * w.re| ≤ 2 ^ (2 * k) := by rw [abs_mul, two_mul, pow_add]; gcongr
  have b2 : |w.im * w.im| ≤ 2 ^ (2 * k) := by rw [abs_mul, two_mul, pow_add]; gcongr
  have b3 : (2 ^ (2 * l))⁻¹ ≤ w.im * w.im := by
    rw [← abs_of_nonneg (mul_self_nonneg w.im), abs_mul, two_mul, pow_add, mul_inv]
    gcongr
  obtain ⟨p, p1, p2, p3⟩ := between FTD.b_zero (b_two (by omega : 2 * k ≤ 900)) (mul_self_nonneg w.re) ((le_abs_self _).trans b1)
  obtain ⟨q, q1, q2, q3⟩ := between (b_two_inv (by omega : 2 * l ≤ 900)) (b_two (by omega : 2 * k ≤ 900)) b3 ((le_abs_self _).trans b2)
  obtain ⟨N, n1, n2, n3⟩ := between (b_two_inv (by omega : 2 * l ≤ 900)) (b_two hk) (by linarith : (2 ^ (2 * l))⁻¹ ≤ p + q) (by rw [pow_succ]; linarith)
  have i1 : Is (a.re * a.re) p := (value_mul h1 h1).trans (congrArg some p1)
  have i2 : Is (a.im * a.im) q := (value_mul h2 h2).trans (congrArg some q1)
  exact ⟨N, (value_add i1 i2).trans (congrArg some n1), n3, n2⟩

/-- The sum of the squares is at least half the larger of them. -/
theorem COff.sq_half (h : COff a k l) (hk : 2 * k + 1 ≤ 900 := by norm_num) (hl : 2 * l ≤ 900 := by norm_num) {w : ℂ} (h1 : Is a.re w.re) (h2 : Is a.im w.im)
    (h3 : |w.re| ≤ 2 ^ k) (h4 : |w.im| ≤ 2 ^ k) (h5 : (2 ^ l)⁻¹ ≤ |w.im|)
    {N : ℝ} (hN : Is (a.re * a.re + a.im * a.im) N) : (max |w.re| |w.im|) ^ 2 / 2 ≤ N := by
  have big : (2 : ℝ) ^ (2 * k) ≤ 2 ^ 900 := pow_le_pow_right₀ (by norm_num) (by omega)
  have big' : (2 : ℝ) ^ (2 * k + 1) ≤ 2 ^ 900 := pow_le_pow_right₀ (by norm_num) (by omega)
  have small : (2 ^ 900 : ℝ)⁻¹ ≤ (2 ^ (2 * l))⁻¹ := inv_anti₀ (by positivity) (pow_le_pow_right₀ (by norm_num) (by omega))
  have sq1 : ∀ x : ℝ, |x| ≤ 2 ^ k → |x * x| ≤ 2 ^ (2 * k) := fun x hx => by rw [abs_mul, two_mul, pow_add]; gcongr
  have sq2 : ∀ x : ℝ, (2 ^ l)⁻¹ ≤ |x| → (2 ^ (2 * l))⁻¹ ≤ |x * x| := fun x hx => by rw [abs_mul, two_mul, pow_add, mul_inv]; gcongr
  have nn : ∀ x : ℝ, |x| ≤ 2 ^ k → ∃ p : ℝ, round64 (x * x) = (p : EReal) ∧ 0 ≤ p ∧ p ≤ 2 ^ (2 * k) := fun x hx =>
    between FTD.b_zero (b_two (by omega)) (mul_self_nonneg x) ((le_abs_self _).trans (sq1 x hx))
  have half : ∀ x p : ℝ, |x| ≤ 2 ^ k → (2 ^ l)⁻¹ ≤ |x| → round64 (x * x) = (p : EReal) → x * x * 0.9 ≤ p := by
    intro x p hx hx' hp
    obtain ⟨v, v1, v2⟩ := round_half ((sq1 x hx).trans big) (small.trans (sq2 x hx'))
    have e : v = p := EReal.coe_injective (v1.symm.trans hp)
    rw [abs_of_nonneg (mul_self_nonneg x)] at v2
    have := (abs_le.1 v2).1
    have hu := uu_small
    have h0 := mul_self_nonneg x
    norm_num at hu ⊢
    nlinarith
  obtain ⟨p, p1, p2, p3⟩ := nn _ h3
  obtain ⟨q, q1, q2, q3⟩ := nn _ h4
  have hq := half _ _ h4 h5 q1
  have hq0 : (2 ^ (2 * l))⁻¹ ≤ q := by
    obtain ⟨v, v1, v2, -⟩ := between (b_two_inv (by omega : 2 * l ≤ 900)) (b_two (by omega : 2 * k ≤ 900)) ((sq2 _ h5).trans_eq (abs_of_nonneg (mul_self_nonneg _)))
      ((le_abs_self _).trans (sq1 _ h4))
    rwa [EReal.coe_injective (v1.symm.trans q1)] at v2
  have hM : (max |w.re| |w.im|) ^ 2 * 0.9 ≤ p + q := by
    rcases le_total |w.re| |w.im| with c | c
    · rw [max_eq_right c, sq_abs]; nlinarith
    · rw [max_eq_left c, sq_abs]
      have := half _ _ h3 (h5.trans c) p1
      nlinarith
  have hpq : |p + q| = p + q := abs_of_nonneg (by linarith)
  obtain ⟨v, v1, v2⟩ := round_half (y := p + q) (by rw [hpq]; rw [pow_succ] at big'; linarith) (by rw [hpq]; linarith)
  have i1 : Is (a.re * a.re) p := (value_mul h1 h1).trans (congrArg some p1)
  have i2 : Is (a.im * a.im) q := (value_mul h2 h2).trans (congrArg some q1)
  have i3 : Is (a.re * a.re + a.im * a.im) v := (value_add i1 i2).trans (congrArg some v1)
  have e : v = N := EReal.coe_injective (Option.some.inj (Eq.trans (Eq.symm i3) hN))
  rw [hpq, e] at v2
  have := (abs_le.1 v2).1
  have hu := uu_small
  norm_num at hu hM ⊢
  nlinarith

theorem COff.sq_amid (h : COff a k l) (hk : 2 * k + 1 ≤ 900 := by norm_num) (hl : 2 * l ≤ 900 := by norm_num) :
    Amid (a.re * a.re + a.im * a.im) (2 * k + 1) (2 * l) := by
  obtain ⟨N, n1, n2, n3⟩ := h.sq hk hl
  have : 0 < N := lt_of_lt_of_le (by positivity) n3
  exact ⟨N, n1, by rwa [abs_of_pos this], by rwa [abs_of_pos this]⟩

theorem CBelow.div (h : CBelow a k) (h' : COff b k' l') (hk : k + k' + 1 + 2 * l' ≤ 900 := by norm_num) (hk' : 2 * k' + 1 ≤ 900 := by norm_num) :
    CBelow (a / b) (k + k' + 1 + 2 * l') := by
  have e : max (k + k') (k + k') + 1 = k + k' + 1 := by rw [max_self]
  have h1 := (h.1.mul h'.1 (by omega)).add (h.2.mul h'.2.below (by omega)) (by omega)
  have h2 := (h.2.mul h'.1 (by omega)).sub (h.1.mul h'.2.below (by omega)) (by omega)
  rw [e] at h1 h2
  have s := h'.sq_amid hk' (by omega)
  exact ⟨h1.div s hk, h2.div s hk⟩

theorem amid_one : Amid (Fl.num 1 : Fl binary64) 0 0 := ⟨1, by show (Fl.num 1 : Fl binary64).value = _; rw [value_num]; rfl, by norm_num, by norm_num⟩

/-- The opposite of a number, as a difference. -/
theorem Amid.zero_sub {y : Fl binary64} (h : Amid y k l) (hk : k ≤ 900 := by norm_num) (hl : l ≤ 900 := by norm_num) : Amid (Fl.num 0 - y) k l := by
  obtain ⟨u, h1, h2, h3⟩ := h
  have z : Is (Fl.num 0 : Fl binary64) 0 := by show (Fl.num 0 : Fl binary64).value = _; rw [value_num]; rfl
  have hn : Is (Fl.neg y) (-u) := by rw [Is, value_neg h1]; rfl
  have := value_add z hn
  exact amid_round (a := Fl.num 0 - y) this (by simpa using h2) (by simpa using h3) hk hl

/-- The reciprocal. -/
theorem COff.inv (h : COff a k l) (hk : l + (2 * k + 1) ≤ 400 := by norm_num) (hl : k + 2 * l ≤ 400 := by norm_num) : COff a⁻¹ (l + 2) (l + (2 * k + 1)) := by
  have hs := h.sq_amid (by omega) (by omega)
  have hre : Below (a⁻¹).re (l + 2) ∧ Below (a⁻¹).im (l + 2) := by
    obtain ⟨w, h1, h2, h3, h4, h5, h6⟩ := h.val
    obtain ⟨N, n1, n2, n3⟩ := h.sq (by omega) (by omega)
    have m := h.sq_half (by omega) (by omega) h1 h2 h3 h4 h5 n1
    have hN : 0 < N := lt_of_lt_of_le (by positivity) n3
    have hM : (2 ^ l)⁻¹ ≤ max |w.re| |w.im| := h5.trans (le_max_right _ _)
    have key : ∀ x : ℝ, |x| ≤ 2 * max |w.re| |w.im| → |x| / N ≤ 2 ^ (l + 2) := by
      intro x hx
      rw [div_le_iff₀ hN]
      generalize max |w.re| |w.im| = M at *
      have h5' : 1 ≤ 2 ^ l * M := by rwa [inv_le_iff_one_le_mul₀' (by positivity)] at hM
      have hp : (0 : ℝ) < 2 ^ l := by positivity
      have hM0 : 0 < M := lt_of_lt_of_le (by positivity) hM
      rw [pow_add]
      nlinarith [mul_le_mul_of_nonneg_left m hp.le, mul_nonneg hM0.le (sub_nonneg.2 h5')]
    have o : Is (Fl.num 1 : Fl binary64) 1 := by show (Fl.num 1 : Fl binary64).value = _; rw [value_num]; rfl
    have one_mul' : ∀ {y : Fl binary64} {v : ℝ}, |v| ≤ 2 ^ k → |v| ≤ max |w.re| |w.im| → Is y v → ∃ v', Is (Fl.num 1 * y) v' ∧ |v'| ≤ 2 * max |w.re| |w.im| := by
      intro y v hv hv' hy
      have := value_mul o hy
      rw [one_mul] at this
      obtain ⟨v', e1, e2⟩ := round64_run (x := v) (hv.trans (by unfold om; exact pow_le_pow_right₀ (by norm_num) (by omega)))
      refine ⟨v', this.trans (congrArg some e1), ?_⟩
      have t1 := abs_sub_abs_le_abs_sub v' v
      have hs : (2 ^ 1000 : ℝ)⁻¹ ≤ (2 ^ l)⁻¹ := inv_anti₀ (by positivity) (pow_le_pow_right₀ (by norm_num) (by omega))
      have hu := uu_small
      have hu0 := uu_pos
      have h0 := abs_nonneg v
      generalize max |w.re| |w.im| = M at *
      generalize (2 ^ 1000 : ℝ)⁻¹ = S at *
      have : uu * |v| ≤ 1 / 10 ^ 15 * M := mul_le_mul hu hv' h0 (by norm_num)
      have : uu * S ≤ uu * M := by gcongr; linarith
      have : uu * M ≤ 1 / 10 ^ 15 * M := by gcongr; linarith
      have hM0 : 0 ≤ M := h0.trans hv'
      norm_num at this
      linarith
    obtain ⟨p, p1, p2⟩ := one_mul' h3 (le_max_left _ _) h1
    obtain ⟨q, q1, q2⟩ := one_mul' h4 (le_max_right _ _) h2
    have i1 := Rel.is_div p1 n1 hN.ne'
    have i2 := Rel.is_div q1 n1 hN.ne'
    refine ⟨below_round (a := (a⁻¹).re) i1 (by rw [abs_div, abs_of_pos hN]; exact key _ p2) (by omega), ?_⟩
    obtain ⟨v, v1, v2⟩ := below_round i2 (by rw [abs_div, abs_of_pos hN]; exact key _ q2) (by omega)
    have z : Is (Fl.num 0 : Fl binary64) 0 := by show (Fl.num 0 : Fl binary64).value = _; rw [value_num]; rfl
    have hn : Is (Fl.neg (Fl.num 1 * a.im / (a.re * a.re + a.im * a.im))) (-v) := by rw [Is, value_neg v1]; rfl
    exact below_round (a := (a⁻¹).im) (value_add z hn) (by simpa using v2) (by omega)
  have him : Amid (a⁻¹).im (k + 2 * l) (l + (2 * k + 1)) := by
    have := ((amid_one.mul h.2 (by omega) (by omega)).div hs (by omega) (by omega)).zero_sub (by omega) (by omega)
    rw [zero_add, zero_add] at this
    exact this
  refine ⟨hre.1, ?_⟩
  obtain ⟨u, u1, u2⟩ := hre.2
  obtain ⟨v, v1, v2, v3⟩ := him
  have : u = v := EReal.coe_injective (Option.some.inj (Eq.trans (Eq.symm u1) v1))
  exact ⟨u, u1, u2, this ▸ v3⟩

/-- The reciprocal of a number that is not small. -/
theorem CBelow.inv {w : ℂ} (h : CBelow a k) (h1 : Is a.re w.re) (h2 : Is a.im w.im) (hw : (2 ^ l)⁻¹ ≤ max |w.re| |w.im|) (hk : 2 * k + 1 ≤ 900 := by norm_num)
    (hl : k + 2 * l ≤ 900 := by norm_num) : CBelow a⁻¹ (k + 2 * l) := by
  have bnd : |w.re| ≤ 2 ^ k ∧ |w.im| ≤ 2 ^ k := by
    obtain ⟨⟨u, u1, u2⟩, v, v1, v2⟩ := h
    rw [← EReal.coe_injective (Option.some.inj (Eq.trans (Eq.symm u1) h1)), ← EReal.coe_injective (Option.some.inj (Eq.trans (Eq.symm v1) h2))]
    exact ⟨u2, v2⟩
  have sq1 : ∀ x : ℝ, |x| ≤ 2 ^ k → x * x ≤ 2 ^ (2 * k) := fun x hx => (le_abs_self _).trans (by rw [abs_mul, two_mul, pow_add]; gcongr)
  have sq2 : ∀ x : ℝ, (2 ^ l)⁻¹ ≤ |x| → (2 ^ (2 * l))⁻¹ ≤ x * x := fun x hx => by
    rw [← abs_of_nonneg (mul_self_nonneg x), abs_mul, two_mul, pow_add, mul_inv]; gcongr
  have one : ∀ {y : Fl binary64} {v : ℝ}, Is y v → |v| ≤ 2 ^ k → ∃ p : ℝ, Is (y * y) p ∧ 0 ≤ p ∧ p ≤ 2 ^ (2 * k) ∧ ((2 ^ l)⁻¹ ≤ |v| → (2 ^ (2 * l))⁻¹ ≤ p) := by
    intro y v hy hv
    obtain ⟨p, p1, p2, p3⟩ := between FTD.b_zero (b_two (by omega : 2 * k ≤ 900)) (mul_self_nonneg v) (sq1 v hv)
    refine ⟨p, (value_mul hy hy).trans (congrArg some p1), p2, p3, fun hl' => ?_⟩
    obtain ⟨q, q1, q2, -⟩ := between (b_two_inv (by omega : 2 * l ≤ 900)) (b_two (by omega : 2 * k ≤ 900)) (sq2 v hl') (sq1 v hv)
    rwa [EReal.coe_injective (q1.symm.trans p1)] at q2
  obtain ⟨p, p1, p2, p3, p4⟩ := one h1 bnd.1
  obtain ⟨q, q1, q2, q3, q4⟩ := one h2 bnd.2
  have hpq : (2 ^ (2 * l))⁻¹ ≤ p + q := by
    rcases le_max_iff.1 hw with c | c
    · linarith [p4 c]
    · linarith [q4 c]
  have hs : Amid (a.re * a.re + a.im * a.im) (2 * k + 1) (2 * l) :=
    amid_round (value_add p1 q1) (by rw [abs_of_nonneg (by linarith), pow_succ]; linarith) (by rw [abs_of_nonneg (by linarith)]; exact hpq) hk (by omega)
  have r1 : Below (Fl.num 1 * a.re / (a.re * a.re + a.im * a.im)) (0 + k + 2 * l) := (amid_one.below.mul h.1 (by omega)).div hs (by omega)
  have r2 : Below (Fl.num 1 * a.im / (a.re * a.re + a.im * a.im)) (0 + k + 2 * l) := (amid_one.below.mul h.2 (by omega)).div hs (by omega)
  rw [zero_add] at r1 r2
  obtain ⟨v, v1, v2⟩ := r2
  have z : Is (Fl.num 0 : Fl binary64) 0 := by show (Fl.num 0 : Fl binary64).value = _; rw [value_num]; rfl
  have hn : Is (Fl.neg (Fl.num 1 * a.im / (a.re * a.re + a.im * a.im))) (-v) := by rw [Is, value_neg v1]; rfl
  exact ⟨r1, below_round (a := (a⁻¹).im) (value_add z hn) (by simpa using v2) (by omega)⟩

/-- The norm. -/
theorem COff.hypot (h : COff a k l) (hk : k + 1 ≤ 900 := by norm_num) (hl : l ≤ 900 := by norm_num) :
    ∃ v : ℝ, Is (Fl.hypot a.re a.im) v ∧ 0 < v ∧ v ≤ 2 ^ (k + 1) ∧ (2 ^ l)⁻¹ ≤ v := by
  obtain ⟨w, h1, h2, h3, h4, h5, -⟩ := h.val
  obtain ⟨v, v1, v2, v3⟩ := between (b_two_inv hl) (b_two hk) (h5.trans (Complex.abs_im_le_norm w))
    ((Complex.norm_le_abs_re_add_abs_im w).trans (by rw [pow_succ]; linarith))
  exact ⟨v, (CTrack.hypot_value h1 h2).trans (congrArg some v1), lt_of_lt_of_le (by positivity) v2, v3, v2⟩

/-- The logarithm. -/
theorem COff.ln (h : COff a k l) (hk : k + 1 ≤ 900 := by norm_num) (hl : l ≤ 900 := by norm_num) : CBelow (CFl.ln a) 10 := by
  obtain ⟨w, h1, h2, -, -, -, h6⟩ := h.val
  obtain ⟨v, v1, v0, v2, v3⟩ := h.hypot hk hl
  refine ⟨?_, ?_⟩
  · have hl' : IsE (NumOps.ln (Fl.hypot a.re a.im)) (binary64.rnd (Real.log v)) := by
      change (Fl.ln _).value = _
      unfold Fl.ln
      simp only [show (Fl.hypot a.re a.im).value = some (v : EReal) from v1, val_of v1, EReal.toReal_coe]
      have n1 : ¬ ((v : EReal) < 0) := not_lt.2 (by exact_mod_cast v0.le)
      have n2 : ¬ ((v : EReal) = 0) := by exact_mod_cast v0.ne'
      simp [n1, n2]
      rfl
    refine below_round (a := (CFl.ln a).re) hl' ?_
    have hlog := Real.log_two_lt_d9
    have hlog0 := Real.log_pos (show (1 : ℝ) < 2 by norm_num)
    have u1 : Real.log v ≤ (k + 1 : ℕ) * Real.log 2 := by rw [← Real.log_pow]; exact Real.log_le_log v0 v2
    have u2 : -(l * Real.log 2) ≤ Real.log v := by rw [← Real.log_pow, ← Real.log_inv]; exact Real.log_le_log (by positivity) v3
    have c1 : ((k + 1 : ℕ) : ℝ) ≤ 900 := by exact_mod_cast hk
    have c2 : (l : ℝ) ≤ 900 := by exact_mod_cast hl
    rw [abs_le]
    constructor <;> nlinarith
  · refine below_round (a := (CFl.ln a).im) (CTrack.atan2_value h1 h2 (Complex.mem_slitPlane_iff.2 (Or.inr h6))) ?_
    have := (Complex.abs_arg_le_pi w).trans Real.pi_le_four
    linarith

theorem sin_lower {x : ℝ} (h : |x| ≤ 13 / 8) : |x| / 2 ≤ |Real.sin x| := by
  have key : ∀ y : ℝ, 0 ≤ y → y ≤ 13 / 8 → y / 2 ≤ Real.sin y := by
    intro y h0 h1
    have hp := Real.pi_gt_d2
    have hp' := Real.pi_lt_d2
    have e : ∀ z : ℝ, 0 ≤ z → z ≤ Real.pi / 2 → 0.63 * z ≤ Real.sin z := by
      intro z z0 z1
      refine le_trans ?_ (Real.mul_le_sin z0 z1)
      gcongr
      rw [le_div_iff₀ (by linarith)]
      norm_num at *
      linarith
    norm_num at hp hp'
    rcases le_total y (Real.pi / 2) with c | c
    · have := e y h0 c
      norm_num at this
      linarith
    · have := e (Real.pi - y) (by linarith) (by linarith)
      rw [Real.sin_pi_sub] at this
      norm_num at this
      linarith
  rcases le_total 0 x with c | c
  · rw [abs_of_nonneg c] at h ⊢
    exact (key x c h).trans (le_abs_self _)
  · rw [abs_of_nonpos c] at h ⊢
    rw [← abs_neg, ← Real.sin_neg]
    exact (key (-x) (by linarith) h).trans (le_abs_self _)

theorem is_sqrt {x : Fl binary64} {v : ℝ} (h : Is x v) (h0 : 0 ≤ v) : IsE (NumOps.sqrt x) (binary64.rnd (√v)) := by
  have := (Fl.sqrt_value h).2 (by exact_mod_cast h0)
  rwa [show sqrtE binary64 (v : EReal) = binary64.rnd (√v) by simp [sqrtE]] at this

theorem amid_sqrt {x : Fl binary64} {v : ℝ} {j : ℕ} (h : Is x v) (h1 : v ≤ 2 ^ (2 * j)) (h2 : (2 ^ l)⁻¹ ≤ v) (hj : j ≤ 900) (hl : l ≤ 900) :
    Amid (NumOps.sqrt x) j l := by
  have h0 : 0 < v := lt_of_lt_of_le (by positivity) h2
  refine amid_round (is_sqrt h h0.le) ?_ ?_ hj hl
  · rw [abs_of_nonneg (Real.sqrt_nonneg _)]
    refine Real.sqrt_le_iff.2 ⟨by positivity, ?_⟩
    rwa [← pow_mul, mul_comm]
  · rw [abs_of_nonneg (Real.sqrt_nonneg _)]
    refine Real.le_sqrt_of_sq_le (le_trans ?_ h2)
    have : (2 ^ l : ℝ)⁻¹ ≤ 1 := inv_le_one_of_one_le₀ (one_le_pow₀ (by norm_num))
    have : (0 : ℝ) < (2 ^ l)⁻¹ := by positivity
    nlinarith

/-- The square root. -/
theorem COff.sqrt {j : ℕ} (h : COff a (2 * j) l) (hj : 2 * j + 2 ≤ 900 := by norm_num) (hl : 2 * l + 2 * j + 3 ≤ 900 := by norm_num) :
    COff (CFl.sqrt a) (j + 1) (2 * l + 2 * j + 3) := by
  obtain ⟨w, h1, h2, h3, h4, h5, h6⟩ := h.val
  obtain ⟨v, v1, v0, v2, v3⟩ := h.hypot (by omega) (by omega)
  have hs : w ∈ Complex.slitPlane := Complex.mem_slitPlane_iff.2 (Or.inr h6)
  have n1 : a.im.value ≠ some 0 := by
    rw [show a.im.value = some (w.im : EReal) from h2]
    simpa using h6
  have two : Amid (ofR 2 : Fl binary64) 1 1 := amid_const (by norm_num) (by norm_num)
  by_cases c : w.re = 0
  · have z1 : a.re.value = some 0 := by rw [show a.re.value = some (w.re : EReal) from h1, c]; rfl
    obtain ⟨a1, -⟩ := CTrack.abs_value h2 h6
    have d := Rel.is_div a1 is_two (by norm_num)
    obtain ⟨p, p1, p2, p3⟩ := between (b_two_inv (by omega : l + 1 ≤ 900)) (b_two (by omega : 2 * j ≤ 900))
      (show (2 ^ (l + 1))⁻¹ ≤ |w.im| / 2 by rw [pow_succ, mul_inv]; linarith) (by have := abs_nonneg w.im; linarith)
    have s : Amid (NumOps.sqrt (Fl.abs a.im / ofR 2)) j (l + 1) := amid_sqrt (d.trans (congrArg some p1)) p3 p2 (by omega) (by omega)
    unfold CFl.sqrt
    rw [if_neg n1, if_pos z1]
    refine ⟨s.below.mono (by omega), ?_⟩
    simp only
    split_ifs
    · exact s.neg.mono (by omega) (by omega)
    · exact s.mono (by omega) (by omega)
  · have m1 : a.re.value ≠ some 0 := by rw [show a.re.value = some (w.re : EReal) from h1]; simpa using c
    unfold CFl.sqrt
    rw [if_neg n1, if_neg m1]
    have hn : Amid (NumOps.sqrt (Fl.hypot a.re a.im)) (j + 1) l := amid_sqrt v1 (v2.trans (pow_le_pow_right₀ (by norm_num) (by omega))) v3 (by omega) (by omega)
    have harg : (2 ^ (l + 2 * j + 1))⁻¹ ≤ |Complex.arg w| := by
      have e1 : |Real.sin (Complex.arg w)| ≤ |Complex.arg w| := Real.abs_sin_le_abs
      have hw0 : w ≠ 0 := fun h => h6 (by rw [h]; rfl)
      have hw : 0 < ‖w‖ := norm_pos_iff.2 hw0
      rw [Complex.sin_arg, abs_div, abs_of_pos hw] at e1
      refine le_trans ?_ e1
      rw [le_div_iff₀ hw]
      have hw2 : ‖w‖ ≤ 2 ^ (2 * j + 1) := (Complex.norm_le_abs_re_add_abs_im w).trans (by rw [pow_succ]; linarith)
      calc (2 ^ (l + 2 * j + 1) : ℝ)⁻¹ * ‖w‖ ≤ (2 ^ (l + 2 * j + 1))⁻¹ * 2 ^ (2 * j + 1) := by gcongr
        _ = (2 ^ l)⁻¹ := by rw [add_assoc, pow_add _ l, mul_inv, mul_assoc, inv_mul_cancel₀ (by positivity), mul_one]
        _ ≤ _ := h5
    have b134 : Binary64 (13 / 4) := ⟨13, -2, by norm_num, by norm_num, by norm_num, by norm_num⟩
    have b138 : Binary64 (13 / 8) := ⟨13, -3, by norm_num, by norm_num, by norm_num, by norm_num⟩
    have hpi : |Complex.arg w| ≤ 13 / 4 := (Complex.abs_arg_le_pi w).trans (by have := Real.pi_lt_d2; norm_num at this; linarith)
    obtain ⟨x, x1, -, x2, -⟩ := round_between (k := 2) (by linarith : |Complex.arg w| ≤ 2 ^ 2) harg (by norm_num) (by omega)
    obtain ⟨e1, e2⟩ := within b134 hpi
    rw [rd_eq x1] at e2
    have ix : Is (Fl.atan2 a.im a.re) x := (CTrack.atan2_value h1 h2 hs).trans (congrArg some x1)
    have hd := Rel.is_div ix is_two (by norm_num)
    have q1 : |x / 2| ≤ 13 / 8 := by rw [abs_div, abs_of_pos (show (0 : ℝ) < 2 by norm_num)]; linarith
    have q2 : (2 ^ (l + 2 * j + 2))⁻¹ ≤ |x / 2| := by
      rw [abs_div, abs_of_pos (show (0 : ℝ) < 2 by norm_num), show l + 2 * j + 2 = l + 2 * j + 1 + 1 by ring, pow_succ, mul_inv]
      linarith
    obtain ⟨y, y1, -, y2, -⟩ := round_between (k := 1) (by linarith : |x / 2| ≤ 2 ^ 1) q2 (by norm_num) (by omega)
    obtain ⟨f1, f2⟩ := within b138 q1
    rw [rd_eq y1] at f2
    have iy : Is (Fl.atan2 a.im a.re / ofR 2) y := hd.trans (congrArg some y1)
    have hcos : IsE (Fl.cos (Fl.atan2 a.im a.re / ofR 2)) (binary64.rnd (Real.cos y)) := by
      change (Fl.cos _).value = _
      unfold Fl.cos
      simp only [show (Fl.atan2 a.im a.re / ofR 2 : Fl binary64).value = some (y : EReal) from iy, val_of iy]
      simp [value_round]
    have hsin : IsE (Fl.sin (Fl.atan2 a.im a.re / ofR 2)) (binary64.rnd (Real.sin y)) := by
      change (Fl.sin _).value = _
      unfold Fl.sin
      simp only [show (Fl.atan2 a.im a.re / ofR 2 : Fl binary64).value = some (y : EReal) from iy, val_of iy]
      simp [value_round]
    have B1 : Below (Fl.cos (Fl.atan2 a.im a.re / ofR 2)) 0 := below_round hcos (by simpa using Real.abs_cos_le_one y)
    have B2 : Amid (Fl.sin (Fl.atan2 a.im a.re / ofR 2)) 0 (l + 2 * j + 3) := by
      refine amid_round hsin (by simpa using Real.abs_sin_le_one y) ?_ (by norm_num) (by omega)
      refine le_trans ?_ (sin_lower f2)
      rw [show l + 2 * j + 3 = l + 2 * j + 2 + 1 by ring, pow_succ, mul_inv]
      linarith
    exact ⟨(hn.below.mul B1 (by omega)).mono (by omega), (hn.mul B2 (by omega) (by omega)).mono (by omega) (by omega)⟩

/-- The quotient of `a - 1` and `a + 1`: the imaginary part does not cancel. -/
theorem COff.quotient (h : COff a 26 l) (hl : 55 + 2 * l ≤ 900 := by norm_num) :
    COff ((a - (ofR 1 : Fl binary64)) / (a + (ofR 1 : Fl binary64))) (55 + 2 * l) (l + 55) := by
  have one : Below (ofR 1 : Fl binary64) 0 := below_const (by norm_num)
  have hp := h.addR one
  have hm := h.below.subR one
  norm_num at hp hm
  have hd : CBelow _ (27 + 27 + 1 + 2 * l) := hm.div hp (by omega) (by norm_num)
  refine ⟨hd.1.mono (by omega), ?_⟩
  have hs : Amid _ (2 * 27 + 1) (2 * l) := hp.sq_amid (by norm_num) (by omega)
  have h900 : l ≤ 1000 := by omega
  obtain ⟨w, h1, h2, h3, h4, h5, h6⟩ := h.val
  have hu := uu_small
  have hu0 := uu_pos
  have small : (2 ^ 1000 : ℝ)⁻¹ ≤ |w.im| := (inv_anti₀ (by positivity) (pow_le_pow_right₀ (by norm_num) h900)).trans h5
  have small1 : (2 ^ 1000 : ℝ)⁻¹ ≤ 1 := inv_le_one_of_one_le₀ (one_le_pow₀ (by norm_num))
  have om27 : (2 : ℝ) ^ 60 ≤ om := by unfold om; exact pow_le_pow_right₀ (by norm_num) (by norm_num)
  have p1 : Is (a.re + ofR 1 : Fl binary64) (rd (w.re + 1)) ∧ |rd (w.re + 1) - (w.re + 1)| ≤ 1 / 8 := by
    have hb : |w.re + 1| ≤ 2 ^ 27 := (abs_add_le _ _).trans (by norm_num at h3 ⊢; linarith)
    obtain ⟨y, y1, y2⟩ := round64_run (hb.trans (le_trans (by norm_num) om27))
    rw [rd_eq y1]
    refine ⟨(value_add h1 is_one).trans (congrArg some y1), y2.trans ?_⟩
    have : uu * |w.re + 1| ≤ 1 / 10 ^ 15 * 2 ^ 27 := mul_le_mul hu hb (abs_nonneg _) (by norm_num)
    have : uu * (2 ^ 1000 : ℝ)⁻¹ ≤ 1 / 10 ^ 15 * 1 := mul_le_mul hu small1 (by positivity) (by norm_num)
    norm_num at *
    linarith
  have q1 : Is (a.re - ofR 1 : Fl binary64) (rd (w.re + -1)) ∧ |rd (w.re + -1) - (w.re + -1)| ≤ 1 / 8 := by
    have hb : |w.re + -1| ≤ 2 ^ 27 := (abs_add_le _ _).trans (by norm_num at h3 ⊢; linarith)
    obtain ⟨y, y1, y2⟩ := round64_run (hb.trans (le_trans (by norm_num) om27))
    rw [rd_eq y1]
    have hn : Is (-(ofR 1) : Fl binary64) (-1) := value_neg is_one
    refine ⟨(value_add h1 hn).trans (congrArg some y1), y2.trans ?_⟩
    have : uu * |w.re + -1| ≤ 1 / 10 ^ 15 * 2 ^ 27 := mul_le_mul hu hb (abs_nonneg _) (by norm_num)
    have : uu * (2 ^ 1000 : ℝ)⁻¹ ≤ 1 / 10 ^ 15 * 1 := mul_le_mul hu small1 (by positivity) (by norm_num)
    norm_num at *
    linarith
  obtain ⟨p1, p2⟩ := p1
  obtain ⟨q1, q2⟩ := q1
  generalize rd (w.re + 1) = P at *
  generalize rd (w.re + -1) = Q at *
  have hr := abs_le.1 h3
  have hP := abs_le.1 p2
  have hQ := abs_le.1 q2
  have hP' : |P| ≤ 2 ^ 27 := abs_le.2 (by norm_num at *; constructor <;> linarith)
  have hQ' : |Q| ≤ 2 ^ 27 := abs_le.2 (by norm_num at *; constructor <;> linarith)
  have prod : ∀ V : ℝ, |V| ≤ 2 ^ 27 → ∃ X : ℝ, round64 (w.im * V) = (X : EReal) ∧ |X - w.im * V| ≤ |w.im| / 8 ∧ |X| ≤ 2 ^ 54 := by
    intro V hV
    have hb : |w.im * V| ≤ |w.im| * 2 ^ 27 := by rw [abs_mul]; gcongr
    have hb2 : |w.im| * 2 ^ 27 ≤ 2 ^ 26 * 2 ^ 27 := by gcongr
    obtain ⟨y, y1, y2⟩ := round64_run (x := w.im * V) ((hb.trans hb2).trans (le_trans (by norm_num) om27))
    have t1 : uu * |w.im * V| ≤ 1 / 10 ^ 15 * (|w.im| * 2 ^ 27) := mul_le_mul hu hb (abs_nonneg _) (by norm_num)
    have t2 : uu * (2 ^ 1000 : ℝ)⁻¹ ≤ 1 / 10 ^ 15 * |w.im| := mul_le_mul hu small (by positivity) (by norm_num)
    have h0 := abs_nonneg w.im
    have t3 : |y - w.im * V| ≤ |w.im| / 8 := by
      generalize (2 ^ 1000 : ℝ)⁻¹ = S at *
      generalize |w.im * V| = T at *
      norm_num at t1 t2
      linarith
    refine ⟨y, y1, t3, ?_⟩
    have := abs_sub_abs_le_abs_sub y (w.im * V)
    generalize |w.im * V| = T at *
    norm_num at hb hb2 h4 ⊢
    linarith
  obtain ⟨X, x1, x2, x3⟩ := prod P hP'
  obtain ⟨Y, z1, z2, z3⟩ := prod Q hQ'
  have iX : Is (a.im * (a.re + ofR 1) : Fl binary64) X := (value_mul h2 p1).trans (congrArg some x1)
  have iY : Is ((a.re - ofR 1) * a.im : Fl binary64) Y := (value_mul q1 h2).trans (congrArg some (by rw [mul_comm Q]; exact z1))
  have hlow : |w.im| ≤ |X - Y| := by
    have e : w.im * (P - Q) = (X - Y) - (X - w.im * P) + (Y - w.im * Q) := by ring
    have t1 := abs_add_three (X - Y) (-(X - w.im * P)) (Y - w.im * Q)
    rw [abs_neg, show (X - Y) + -(X - w.im * P) + (Y - w.im * Q) = w.im * (P - Q) by ring, abs_mul] at t1
    have t2 : 3 / 2 ≤ |P - Q| := le_trans (by linarith) (le_abs_self _)
    have h0 := abs_nonneg w.im
    nlinarith
  have iD : IsE (a.im * (a.re + ofR 1) - (a.re - ofR 1) * a.im : Fl binary64) (binary64.rnd (X - Y)) := by
    have hn : Is (-((a.re - ofR 1) * a.im) : Fl binary64) (-Y) := value_neg iY
    have := value_add iX hn
    rwa [← sub_eq_add_neg] at this
  have D : Amid (a.im * (a.re + ofR 1) - (a.re - ofR 1) * a.im : Fl binary64) 55 l :=
    amid_round iD (by have := abs_sub X Y; norm_num at x3 z3 ⊢; linarith) (h5.trans hlow) (by norm_num) (by omega)
  have R : Amid _ (55 + 2 * l) (l + (2 * 27 + 1)) := D.div hs (by omega) (by omega)
  exact R.mono (by omega) (by omega)

end

/-! ## The functions, off the real axis -/

section
variable {x : CFl binary64}

theorem k1 : Amid (ofR 1 : Fl binary64) 0 0 := amid_const (by norm_num) (by norm_num)
theorem k2 : Amid (ofR 2 : Fl binary64) 1 0 := amid_const (by norm_num) (by norm_num)
theorem k3 : Below (ofR 3 : Fl binary64) 2 := below_const (by norm_num)
theorem k4 : Amid (ofR 4 : Fl binary64) 2 0 := amid_const (by norm_num) (by norm_num)
theorem k8 : Amid (ofR 8 : Fl binary64) 3 0 := amid_const (by norm_num) (by norm_num)
theorem k9 : Amid (ofR 9 : Fl binary64) 4 0 := amid_const (by norm_num) (by norm_num)
theorem k12 : Amid (ofR 12 : Fl binary64) 4 0 := amid_const (by norm_num) (by norm_num)
theorem k72 : Amid (ofR 72 : Fl binary64) 7 0 := amid_const (by norm_num) (by norm_num)

variable (h : COff x 20 44)
include h

namespace COff

theorem si : COff x⁻¹ 46 85 := h.inv
theorem si2 : CBelow (x⁻¹ * x⁻¹) 93 := h.si.below.mul h.si.below
theorem si3 : CBelow (x⁻¹ * (x⁻¹ * x⁻¹)) 140 := h.si.below.mul h.si2
theorem p1 : COff (x + (ofR 1 : Fl binary64)) 21 44 := h.addR k1.below
theorem p2 : CBelow ((x + (ofR 1 : Fl binary64)) * (x + (ofR 1 : Fl binary64))) 43 := h.p1.below.mul h.p1.below
theorem s2 : CBelow (x * x) 41 := h.below.mul h.below
theorem l0 : CBelow (CFl.ln x) 10 := h.ln
theorem l1 : CBelow (CFl.ln (x + (ofR 1 : Fl binary64))) 10 := h.p1.ln
theorem arg : COff (x⁻¹ * (ofR 4 : Fl binary64) + (ofR 1 : Fl binary64)) 50 85 := ((h.si.mulR k4).addR k1.below).mono (by decide) (by decide)
theorem rt : COff (CFl.sqrt (x⁻¹ * (ofR 4 : Fl binary64) + (ofR 1 : Fl binary64))) 26 223 := by
  have r : COff (x⁻¹ * (ofR 4 : Fl binary64) + (ofR 1 : Fl binary64)) (2 * 25) 85 := h.arg
  exact r.sqrt.mono (by norm_num) (by norm_num)
theorem lp : COff ((CFl.sqrt (x⁻¹ * (ofR 4 : Fl binary64) + (ofR 1 : Fl binary64)) - (ofR 1 : Fl binary64)) / (ofR 2 : Fl binary64)) 27 224 :=
  (h.rt.subR k1.below).divR k2
theorem qk : COff ((CFl.sqrt (x⁻¹ * (ofR 4 : Fl binary64) + (ofR 1 : Fl binary64)) - (ofR 1 : Fl binary64)) /
    (CFl.sqrt (x⁻¹ * (ofR 4 : Fl binary64) + (ofR 1 : Fl binary64)) + (ofR 1 : Fl binary64))) 501 278 := h.rt.quotient.mono (by norm_num) (by norm_num)

theorem slits : Slits x := ⟨h.slit, h.p1.slit, h.arg.slit, h.lp.slit, h.qk.slit⟩

theorem size_ghost : CBelow (CFl.ghost.g x) 200 :=
  CBelow.mono (CBelow.divR (((h.p2.mul ((h.si.below.mulR k2.below).sub h.si2)).mul h.l1 |>.sub ((h.below.mulR k2.below).mul h.l0)).add (h.si.below.addR k2.below)) k12)
    (by decide)

theorem size_ghost_xi : CBelow (CFl.ghost.g_xi x) 10 := h.l0.neg.divR k12

theorem size_gluon : CBelow (CFl.gluon.f x) 250 := by
  have la := (((((h.s2.mulR k3).sub (h.below.mulR (below_const (c := 34) (k := 6) (by norm_num)))).subR (below_const (c := 28) (k := 5) (by norm_num))).sub
    (h.si.below.mulR (below_const (c := 24) (k := 5) (by norm_num)))).mul h.rt.below).mul (((h.lp.ln).mulR k2.below).add h.l0)
  have lb := ((h.p2.mul ((((h.si.below.neg.mulR (below_const (c := 20) (k := 5) (by norm_num))).addR k3).add
    (h.si2.mulR (below_const (c := 11) (k := 4) (by norm_num)))).sub (h.si3.mulR k2.below))).mulR k2.below).mul h.l1
  have lc := ((h.s2.neg.mulR k3).addR k2.below).mul h.l0
  have ra := (h.below.addR k4.below).neg.mul ((h.below.subR (below_const (c := 20) (k := 5) (by norm_num))).add (h.si.below.mulR k12.below))
  have rb := (h.p2.mulR k2.below).mul (((h.si.below.neg.mulR (below_const (c := 10) (k := 4) (by norm_num))).addR k1.below).add h.si2)
  have rc := ((h.si2.mulR k2.below).addR k2.below).sub h.s2
  exact CBelow.mono (((((((la.add lb).add lc).add ra).add rb).add rc).divR k72).add ((h.si.below.mulR (below_const (c := 5) (k := 3) (by norm_num))).divR k8))
    (by decide)

theorem size_gluon_xi : CBelow (CFl.gluon.f_xi x) 200 := by
  have t := (((((h.below.mulR k2.below).mul h.l0).sub ((((h.si2.sub h.si.below).mul (h.si.below.sub h.s2)).mulR k2.below).mul h.l1)).addR k3).sub
    (h.si.below.mulR k3)).add (h.si2.mulR k2.below)
  exact CBelow.mono ((h.si.below.divR k4).sub (t.divR k12)) (by decide)

theorem size_quark : CBelow (CFl.gluon.f_q x) 300 := by
  have t := ((((h.si.below.neg.addR (below_const (c := 1 / 2) (k := 0) (by norm_num [abs_of_pos]))).mul h.rt.below).mul h.qk.ln).sub (h.si.below.mulR k2.below)).addR
    (below_const (c := 5 / 6) (k := 0) (by norm_num [abs_of_pos]))
  exact CBelow.mono ((t.mulR k4.below).divR k9) (by decide)

theorem size_crossed : CBelow (CFl.gluon.f_q_crossed x) 700 := by
  have t := ((h.si.below.addR (below_const (c := 1 / 2) (k := 0) (by norm_num [abs_of_pos]))).add (h.si2.mulR k8.below)).div h.rt
  exact CBelow.mono (((((h.si.below.mulR k4.below).subR (below_const (c := 1 / 6) (k := 0) (by norm_num [abs_of_pos]))).add (t.mul h.qk.ln)).mulR k4.below).divR k9)
    (by decide)

end COff
end

end Qcd
