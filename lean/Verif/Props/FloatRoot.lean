import Verif.Lemmas.FloatRoot
import Verif.Props.Utils

/-! # C118: the root finder in floating-point arithmetic -/

namespace Qcd
open Fl Spec utils
variable {r : Rounding}

/-- **C118** (panics): exactly when the guesses are the same number (the two zeros are the same number, NaN is not the same as NaN) or the tolerance is not a
positive number. -/
theorem C118_panics (f : Fl r → Fl r) (a b tol : Fl r) (n : ℕ) :
    find_root (floatOps r) f (a, b) tol n = .panic ↔ (∃ x, IsE a x ∧ IsE b x) ∨ ¬ ∃ t, IsE tol t ∧ 0 < t := by
  rw [C08_panics_iff]
  have h1 : (floatOps r).beq a b = true ↔ ∃ x, IsE a x ∧ IsE b x := beq_iff
  have h2 : (floatOps r).gt0 tol = false ↔ ¬ ∃ t, IsE tol t ∧ 0 < t := by
    rw [← Bool.not_eq_true, not_iff_not]
    change Fl.lt (num 0) tol = true ↔ _
    rw [lt_iff]
    constructor
    · rintro ⟨x, y, hx, hy, h⟩
      simp at hx; subst hx
      exact ⟨y, hy, h⟩
    · rintro ⟨t, ht, h⟩
      exact ⟨0, t, rfl, ht, h⟩
  exact or_congr h1 h2

/-- **C118** (soundness): a result is a pair of a point and the value of the function there, a finite number smaller in absolute value than the tolerance. -/
theorem C118_sound {f : Fl r → Fl r} {a b tol z w : Fl r} {n : ℕ} (h : find_root (floatOps r) f (a, b) tol n = .some z w) :
    w = f z ∧ ∃ (v : ℝ) (t : EReal), Is w v ∧ IsE tol t ∧ ((|v| : ℝ) : EReal) < t := by
  obtain ⟨rfl, h'⟩ := C07_find_root_sound _ _ _ _ _ _ _ h
  refine ⟨rfl, ?_⟩
  have hl : Fl.lt (absF (f z)) tol = true := h'
  obtain ⟨-, t, -, ht, -⟩ := lt_iff.1 hl
  obtain ⟨x, hx, h1, h2⟩ := (abs_lt_iff ht).1 hl
  have hx1 : x ≠ ⊤ := fun e => by rw [e] at h2; exact not_top_lt h2
  have hx2 : x ≠ ⊥ := fun e => by rw [e] at h1; exact not_lt_bot h1
  lift x to ℝ using ⟨hx1, hx2⟩
  refine ⟨x, t, hx, ht, ?_⟩
  rcases abs_cases x with ⟨e, -⟩ | ⟨e, -⟩ <;> rw [e]
  · exact h2
  · rw [EReal.coe_neg]; exact EReal.neg_lt_comm.1 h1

/-- **C118** (finite results): if the function has no finite value at infinity and at NaN, the root is a finite number. -/
theorem C118_finite {f : Fl r → Fl r} (hf : Strict f) {a b tol z w : Fl r} {n : ℕ} (h : find_root (floatOps r) f (a, b) tol n = .some z w) :
    ∃ x : ℝ, Is z x := by
  obtain ⟨rfl, v, -, hv, -⟩ := C118_sound h
  by_contra hc
  exact hf.inf z (not_exists.1 hc) v hv

theorem float_find_root_loop {f : Fl r → Fl r} {a b tol : Fl r} {n : ℕ} (hp : find_root (floatOps r) f (a, b) tol n ≠ .panic) :
    find_root (floatOps r) f (a, b) tol n = (loop (floatOps r) f tol n a b (f a) (f b)).1 := by
  unfold find_root find_root_log at hp ⊢
  simp only at hp ⊢
  split_ifs at hp ⊢
  all_goals first | rfl | exact absurd rfl hp

/-- **C118** (fails closed): if the value at the second guess is infinite or NaN the function does not return a root. -/
theorem C118_not_finite {f : Fl r → Fl r} (hf : f nan = nan) {a b tol : Fl r} (n : ℕ) (h : NotFinite (f b)) :
    find_root (floatOps r) f (a, b) tol n = .panic ∨ find_root (floatOps r) f (a, b) tol n = .none := by
  by_cases hp : find_root (floatOps r) f (a, b) tol n = .panic
  · exact .inl hp
  · right
    rw [float_find_root_loop hp]
    exact float_loop_notFinite hf tol n _ _ _ h

/-- **C118** (horizontal secant): if the function takes the same value at both guesses, and that is not below the tolerance, there is no root: the next point is infinite
or NaN. Exact arithmetic has no counterpart of this division by zero. -/
theorem C118_flat {f : Fl r → Fl r} (hf : Strict f) {a b tol : Fl r} (n : ℕ) {c t : ℝ} (ha : Is (f a) c) (hb : Is (f b) c) (ht : Is tol t) (hc : t ≤ |c|) :
    find_root (floatOps r) f (a, b) tol n = .panic ∨ find_root (floatOps r) f (a, b) tol n = .none := by
  by_cases hp : find_root (floatOps r) f (a, b) tol n = .panic
  · exact .inl hp
  right
  rw [float_find_root_loop hp]
  cases n with
  | zero => rfl
  | succ n =>
    simp only [loop]
    split_ifs with h1 h2
    · rfl
    · exfalso
      have hl : Fl.lt (absF (f b)) tol = true := h2
      obtain ⟨x, hx, h3, h4⟩ := (abs_lt_iff ht).1 hl
      rw [hb] at hx; cases hx
      rw [← EReal.coe_neg, EReal.coe_lt_coe_iff] at h3
      rw [EReal.coe_lt_coe_iff] at h4
      exact absurd (abs_lt.2 ⟨h3, h4⟩) (not_lt.2 hc)
    · refine float_loop_notFinite hf.nan tol n _ _ _ (hf.inf _ ?_)
      refine notFinite_div_zero _ ?_
      have e : (f b - f a).value = some (r.rnd (c + -c)) := by
        have := value_neg ha
        rw [← EReal.coe_neg] at this
        exact value_add hb this
      change (f b - f a).value = some 0
      rw [e, add_neg_cancel, r.zero]

/-- **C118** (overflow): for the function `f(z) = z`, whose root 0 the secant method finds in one step in exact arithmetic (C10), the search fails if the product of the
guesses overflows. -/
theorem C118_overflow {a b tol : Fl r} {x y t : ℝ} (ha : Is a x) (hb : Is b y) (ht : Is tol t) (h0 : 0 < t) (hty : t ≤ |y|) (hxy : x ≠ y) (h : r.rnd (x * y) = ⊤) (n : ℕ) :
    find_root (floatOps r) (fun z => z) (a, b) tol n = .none := by
  have hp : find_root (floatOps r) (fun z => z) (a, b) tol n ≠ .panic := by
    rw [Ne, C118_panics, not_or, not_not]
    refine ⟨?_, t, ht, by exact_mod_cast h0⟩
    rintro ⟨w, h1, h2⟩
    have e1 : (x : EReal) = w := by rw [Is] at ha; rw [IsE, ha] at h1; exact Option.some.inj h1
    have e2 : (y : EReal) = w := by rw [Is] at hb; rw [IsE, hb] at h2; exact Option.some.inj h2
    exact hxy (EReal.coe_injective (e1.trans e2.symm))
  rw [float_find_root_loop hp]
  cases n with
  | zero => rfl
  | succ n =>
    simp only [loop]
    split_ifs with h1 h2
    · rfl
    · exfalso
      have hl : Fl.lt (absF b) tol = true := h2
      obtain ⟨w, hx, h3, h4⟩ := (abs_lt_iff ht).1 hl
      rw [hb] at hx; cases hx
      rw [← EReal.coe_neg, EReal.coe_lt_coe_iff] at h3
      rw [EReal.coe_lt_coe_iff] at h4
      exact absurd (abs_lt.2 ⟨h3, h4⟩) (not_lt.2 hty)
    · have e1 : (a * b).value = some ⊤ := (value_mul ha hb).trans (congrArg some h)
      have e2 : (b * a).value = some ⊤ := (value_mul hb ha).trans (congrArg some (by rw [mul_comm]; exact h))
      have e3 : a * b - b * a = nan := by
        change Fl.add (a * b) (Fl.neg (b * a)) = nan
        have e4 := value_neg e2
        unfold Fl.add
        rw [if_neg (by simp [e1, e4]), if_pos (.inl ⟨val_of e1, by rw [val_of e4]; rfl⟩)]
      have e5 : (floatOps r).div ((floatOps r).sub ((floatOps r).mul a b) ((floatOps r).mul b a)) ((floatOps r).sub b a) = nan := by
        change (a * b - b * a) / (b - a) = nan
        rw [e3]
        change Fl.div nan _ = nan
        simp [Fl.div]
      rw [e5]
      exact float_loop_nan tol n _ _ _

theorem middle_ne {x : ℝ} (h : Middle x) : x ≠ 0 := fun e => by
  have := h.1; rw [e, abs_zero] at this; exact absurd this (not_le.2 (by positivity))

theorem mid_pow {B : ℝ} {k : ℕ} (hk : k ≤ 250) (lo : 1 / 10 ^ k ≤ B) (hi : B ≤ 10 ^ k) : Mid B := mid_of (by rwa [← one_div]) hi hk

theorem value_div {a b : Fl r} {v c : ℝ} (ha : Is a v) (hb : Is b c) (hc : c ≠ 0) : IsE (a / b) (r.rnd (v / c)) := by
  have h' : (c : EReal) ≠ 0 := by exact_mod_cast hc
  change (Fl.div a b).value = _
  unfold Fl.div
  simp only [show a.value = some (v : EReal) from ha, show b.value = some (c : EReal) from hb, val_of ha, val_of hb, EReal.toReal_coe]
  simp [value_round, hc]

/-- **C118** (accuracy): the point computed from two points and two values of ordinary size is at most 30 roundings of the terms of the formula away from the zero of
the secant. -/
theorem C118_step {a b fa fb : Fl binary64} {z0 z1 f0 f1 : ℝ} (ha : Is a z0) (hb : Is b z1) (hfa : Is fa f0) (hfb : Is fb f1)
    (h0 : Middle z0) (h1 : Middle z1) (g0 : Middle f0) (g1 : Middle f1) (g : Middle (f1 - f0)) :
    ∃ v : ℝ, Is ((a * fb - b * fa) / (fb - fa)) v ∧ |v - secantPoint z0 z1 f0 f1| ≤ 30 * ulp * secantScale z0 z1 f0 f1 := by
  have prod {x y : ℝ} (hx : Middle x) (hy : Middle y) : 1 / 10 ^ 120 ≤ |x| * |y| ∧ |x| * |y| ≤ 10 ^ 120 := by
    constructor
    · calc (1 : ℝ) / 10 ^ 120 = 1 / 10 ^ 60 * (1 / 10 ^ 60) := by norm_num
        _ ≤ |x| * |y| := mul_le_mul hx.1 hy.1 (by positivity) (abs_nonneg _)
    · calc |x| * |y| ≤ 10 ^ 60 * 10 ^ 60 := mul_le_mul hx.2 hy.2 (abs_nonneg _) (by positivity)
        _ = 10 ^ 120 := by norm_num
  obtain ⟨pl, ph⟩ := prod h0 g1
  obtain ⟨ql, qh⟩ := prod h1 g0
  have r1 := (Run.exact ha).mul (Run.exact hfb) le_rfl le_rfl (by norm_num) (by norm_num) (mid_pow (by norm_num : 120 ≤ 250) pl ph)
  have r2 := (Run.exact hb).mul (Run.exact hfa) le_rfl le_rfl (by norm_num) (by norm_num) (mid_pow (by norm_num : 120 ≤ 250) ql qh)
  set B := |z0| * |f1| + |z1| * |f0| with hB
  have Bl : 1 / 10 ^ 120 ≤ B := by have : 0 ≤ |z1| * |f0| := by positivity
                                   linarith
  have Bh : B ≤ 10 ^ 121 := by
    have : (10 : ℝ) ^ 120 + 10 ^ 120 ≤ 10 ^ 121 := by norm_num
    linarith
  have r3 := r1.sub r2 (by norm_num) (by norm_num) (mid_pow (by norm_num : 121 ≤ 250) (le_trans (by norm_num) Bl) Bh)
  rw [← hB] at r3
  obtain ⟨N, hN, hN1, hN2⟩ := r3
  set D := f1 - f0 with hD
  have hDn : D ≠ 0 := middle_ne g
  have hDp : 0 < |D| := abs_pos.2 hDn
  have rd : Rel (fb - fa) D (0 + 1 / 10 ^ 15) := by
    refine Rel.of_round (v := D) ?_ (mid_pow (by norm_num : 60 ≤ 250) g.1 g.2) le_rfl (by norm_num) (by simp)
    have := value_neg hfa
    rw [← EReal.coe_neg] at this
    rw [hD, sub_eq_add_neg]
    exact value_add hfb this
  obtain ⟨E, hE, hE1⟩ := rd
  rw [zero_add] at hE1
  have hEl : |D| * (1 - 1 / 10 ^ 15) ≤ |E| := by
    have := abs_sub_abs_le_abs_sub D E
    rw [abs_sub_comm D E] at this
    linarith
  have hEp : 0 < |E| := lt_of_lt_of_le (by nlinarith) hEl
  have hEn : E ≠ 0 := abs_pos.1 hEp
  have hB0 : 0 < B := lt_of_lt_of_le (by positivity) Bl
  have hQ : Mid (B / |D|) := by
    refine mid_pow (by norm_num : 181 ≤ 250) ?_ ?_
    · rw [le_div_iff₀ hDp]
      calc 1 / 10 ^ 181 * |D| ≤ 1 / 10 ^ 181 * 10 ^ 60 := by gcongr; exact g.2
        _ ≤ 1 / 10 ^ 120 := by norm_num
        _ ≤ B := Bl
    · rw [div_le_iff₀ hDp]
      calc B ≤ 10 ^ 121 := Bh
        _ = 10 ^ 181 * (1 / 10 ^ 60) := by norm_num
        _ ≤ 10 ^ 181 * |D| := by gcongr; exact g.1
  set M := z0 * f1 - z1 * f0 with hM
  have hu := uu_pos
  have herr : |N / E - M / D| ≤ 28 * uu * (B / |D|) := by
    have e : N / E - M / D = ((N - M) * D - M * (E - D)) / (E * D) := by field_simp; ring
    rw [e, abs_div, abs_mul, ← mul_div_assoc, div_le_div_iff₀ (by positivity) hDp]
    have t1 : |(N - M) * D - M * (E - D)| ≤ 5 * uu * B * |D| + B * (1 / 10 ^ 15 * |D|) := by
      refine (abs_sub _ _).trans (add_le_add ?_ ?_)
      · rw [abs_mul]; gcongr; refine hN2.trans (le_of_eq ?_); norm_num
      · rw [abs_mul]; gcongr
    have t2 : (1 : ℝ) / 10 ^ 15 ≤ 10 * uu := by unfold uu; norm_num
    have t3 : 5 * uu * B * |D| + B * (1 / 10 ^ 15 * |D|) ≤ 15 * uu * (B * |D|) := by
      have : 0 ≤ B * |D| := by positivity
      nlinarith
    have t4 : 15 * uu * (B * |D|) * |D| ≤ 28 * uu * B * (|E| * |D|) := by
      have h5 : 15 * |D| ≤ 28 * |E| := by nlinarith
      have : 0 ≤ uu * B * |D| := by positivity
      nlinarith
    calc |(N - M) * D - M * (E - D)| * |D| ≤ 15 * uu * (B * |D|) * |D| := by gcongr; exact t1.trans t3
      _ ≤ _ := t4
  have hMB : |M / D| ≤ B / |D| := by
    rw [abs_div]; gcongr
  obtain ⟨v, hv, -, h2⟩ := Run.of_round (n := 28) (value_div hN hE hEn) hMB hQ (by norm_num) (by norm_num) herr
  refine ⟨v, hv, ?_⟩
  have e1 : secantPoint z0 z1 f0 f1 = M / D := by unfold secantPoint; rw [← hD]; field_simp; rw [hM, hD]; ring
  have e2 : secantScale z0 z1 f0 f1 = B / |D| := by unfold secantScale; rw [hB, abs_mul, abs_mul]
  have e3 : ulp = uu := rfl
  rw [e1, e2, e3]
  refine h2.trans (le_of_eq ?_)
  norm_num

/-- **C118** (accuracy, bracketed root): if the guesses have the same sign and the values opposite signs, no digits cancel and the relative error of the new point is at most 30 roundings. -/
theorem C118_bracketed {a b fa fb : Fl binary64} {z0 z1 f0 f1 : ℝ} (ha : Is a z0) (hb : Is b z1) (hfa : Is fa f0) (hfb : Is fb f1)
    (h0 : Middle z0) (h1 : Middle z1) (g0 : Middle f0) (g1 : Middle f1) (g : Middle (f1 - f0)) (hz : 0 < z0 * z1) (hf : f0 * f1 < 0) :
    ∃ v : ℝ, Is ((a * fb - b * fa) / (fb - fa)) v ∧ |v - secantPoint z0 z1 f0 f1| ≤ 30 * ulp * |secantPoint z0 z1 f0 f1| := by
  obtain ⟨v, hv, h⟩ := C118_step ha hb hfa hfb h0 h1 g0 g1 g
  refine ⟨v, hv, h.trans (le_of_eq ?_)⟩
  have hD : f1 - f0 ≠ 0 := middle_ne g
  have e : secantPoint z0 z1 f0 f1 = (z0 * f1 - z1 * f0) / (f1 - f0) := by unfold secantPoint; field_simp; ring
  have hs : z0 * f1 * (z1 * f0) < 0 := by nlinarith
  have e2 : |z0 * f1 - z1 * f0| = |z0 * f1| + |z1 * f0| := by
    rcases mul_neg_iff.1 hs with ⟨p, q⟩ | ⟨p, q⟩
    · rw [abs_of_pos p, abs_of_neg q, abs_of_pos (by linarith)]; ring
    · rw [abs_of_neg p, abs_of_pos q, abs_of_neg (by linarith)]; ring
  rw [e, abs_div, e2, secantScale]

/-! ### Non-vacuity -/

/-- Two guesses in `f64` whose product overflows. -/
example : find_root (floatOps binary64) (fun z => z) (num ((2 ^ (600 : ℤ) : ℝ) : EReal), num ((2 ^ (601 : ℤ) : ℝ) : EReal)) (num ((1 : ℝ) : EReal)) 1000 = .none := by
  have hx (x : ℝ) : Is (num (x : EReal) : Fl binary64) x := rfl
  refine C118_overflow (hx _) (hx _) (hx _) one_pos ?_ ?_ ?_ 1000
  · rw [abs_of_pos (by positivity)]; exact one_le_zpow₀ (by norm_num) (by norm_num)
  · exact (zpow_right_injective₀ (by norm_num) (by norm_num)).ne (by norm_num)
  · change round64 _ = ⊤
    rw [round64_top, overflowBound_eq, ← zpow_add₀ (by norm_num)]
    calc ((2 : ℝ) ^ 54 - 1) * 2 ^ (970 : ℤ) ≤ 2 ^ (54 : ℤ) * 2 ^ (970 : ℤ) := by gcongr; norm_num
      _ = 2 ^ (1024 : ℤ) := by rw [← zpow_add₀ (by norm_num)]; norm_num
      _ ≤ _ := zpow_le_zpow_right₀ (by norm_num) (by norm_num)

/-- A horizontal secant: `f(z) = z * z` at -1 and 1. -/
example (n : ℕ) : find_root (floatOps binary64) (fun z => z * z) (num ((-1 : ℝ) : EReal), num ((1 : ℝ) : EReal)) (num ((1 : ℝ) : EReal)) n = .none := by
  have hs : Strict (fun z : Fl binary64 => z * z) := ⟨fun a h => notFinite_mul h a, by change Fl.mul nan nan = nan; simp [Fl.mul]⟩
  have h1 : Is ((num ((-1 : ℝ) : EReal) : Fl binary64) * num ((-1 : ℝ) : EReal)) 1 := by
    refine (value_mul rfl rfl).trans ?_
    rw [show (-1 : ℝ) * -1 = 1 by norm_num, binary64.one]; rfl
  have h2 : Is ((num ((1 : ℝ) : EReal) : Fl binary64) * num ((1 : ℝ) : EReal)) 1 := by
    refine (value_mul rfl rfl).trans ?_
    rw [show (1 : ℝ) * 1 = 1 by norm_num, binary64.one]; rfl
  have hx (x : ℝ) : Is (num (x : EReal) : Fl binary64) x := rfl
  refine (C118_flat hs n h1 h2 (hx _) (by norm_num)).resolve_left ?_
  rw [C118_panics, not_or, not_not]
  refine ⟨?_, _, rfl, by exact_mod_cast one_pos⟩
  rintro ⟨w, h3, h4⟩
  have e := EReal.coe_injective (Option.some.inj (h3.trans h4.symm))
  norm_num at e

example : Middle 1 ∧ Middle 2 ∧ Middle (-1) ∧ (0 : ℝ) < 1 * 2 ∧ (-1 : ℝ) * 1 < 0 ∧ Middle (1 - -1) := by
  unfold Middle; norm_num

end Qcd
