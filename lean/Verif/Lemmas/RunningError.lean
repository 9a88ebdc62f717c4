import Verif.Lemmas.SmallMomenta

/-! # Lemmas on chains of rounded operations: running errors -/

namespace Qcd
open Fl Spec

/-- Half the distance of the numbers after 1. -/
noncomputable def uu : ℝ := 1 / 2 ^ 53

theorem uu_pos : 0 < uu := by unfold uu; positivity

/-- Neither very small nor very large. -/
structure Mid (B : ℝ) : Prop where
  lo : (2 ^ 900)⁻¹ ≤ B
  hi : B ≤ 2 ^ 900

theorem Mid.pos {B : ℝ} (h : Mid B) : 0 < B := lt_of_lt_of_le (by positivity) h.lo

theorem round64_run {x : ℝ} (h : |x| ≤ om) : ∃ y : ℝ, round64 x = (y : EReal) ∧ |y - x| ≤ uu * |x| + uu * (2 ^ 1000)⁻¹ := by
  rcases eq_or_ne x 0 with rfl | hx0
  · exact ⟨0, by rw [round64_zero]; rfl, by have := uu_pos; simp; positivity⟩
  obtain ⟨y, hy, -⟩ := round64_abs h
  refine ⟨y, hy, ?_⟩
  have herr := abs_roundPos_sub (x := |x|)
  have hu : (2 : ℝ) ^ (-53 : ℤ) = uu := by unfold uu; rw [zpow_neg, one_div]; rfl
  have hxn := abs_nonneg x
  have hrel : |(roundPos (|x|)) - (|x|)| ≤ uu * |x| + uu * (2 ^ 1000)⁻¹ := by
    refine herr.trans ?_
    rw [show expo |x| - 53 = -53 + expo |x| by ring, zpow_add₀ (by norm_num), hu, ← mul_add]
    refine mul_le_mul_of_nonneg_left ?_ uu_pos.le
    have hp : (0 : ℝ) < (2 ^ 1000)⁻¹ := by positivity
    by_cases hc : -1022 < expo |x|
    · linarith [zpow_expo_le (abs_pos.2 hx0) hc]
    · have := zpow_le_zpow_right₀ (by norm_num : (1 : ℝ) ≤ 2) (show expo |x| ≤ -1000 by omega)
      have e : (2 : ℝ) ^ (-1000 : ℤ) = (2 ^ 1000)⁻¹ := by
        rw [zpow_neg, show (1000 : ℤ) = ((1000 : ℕ) : ℤ) from rfl, zpow_natCast]
      rw [e] at this
      linarith
  have h53 : |round53 x - x| ≤ uu * |x| + uu * (2 ^ 1000)⁻¹ := by
    unfold round53
    split_ifs with h
    · rw [abs_of_neg h] at hrel ⊢
      rwa [show -roundPos (-x) - x = -(roundPos (-x) - -x) by ring, abs_neg]
    · rwa [abs_of_nonneg (not_lt.1 h)] at hrel ⊢
  rwa [round64_real hy] at h53

/-- The computed number `a` stands for `x`, of absolute value at most `B`; its error is at most `n` roundings of a number of absolute value `B`. -/
def Run (a : Fl binary64) (x B n : ℝ) : Prop := ∃ v : ℝ, Is a v ∧ |x| ≤ B ∧ |v - x| ≤ n * uu * B

namespace Run
variable {a b : Fl binary64} {x y B C n k : ℝ}

theorem bound (h : Run a x B n) : |x| ≤ B := h.choose_spec.2.1

theorem of_round {v : ℝ} (ha : IsE a (binary64.rnd v)) (hx : |x| ≤ B) (hB : Mid B) (hn : 0 ≤ n) (hn' : n ≤ 10 ^ 6) (he : |v - x| ≤ n * uu * B) :
    Run a x B (n + 2) := by
  have hB0 := hB.pos
  have hu : uu ≤ 1 / 10 ^ 15 := by unfold uu; norm_num
  have hnu : n * uu * B ≤ B := by
    have : n * uu ≤ 1 := by
      calc n * uu ≤ 10 ^ 6 * (1 / 10 ^ 15) := mul_le_mul hn' hu uu_pos.le (by positivity)
        _ ≤ 1 := by norm_num
    nlinarith
  have hv : |v| ≤ B * (1 + 1 / 10 ^ 9) := by
    have h1 : |v| ≤ |x| + |v - x| := by
      have := abs_add_le x (v - x)
      rwa [add_sub_cancel] at this
    have : n * uu ≤ 1 / 10 ^ 9 := by
      calc n * uu ≤ 10 ^ 6 * (1 / 10 ^ 15) := mul_le_mul hn' hu uu_pos.le (by positivity)
        _ ≤ 1 / 10 ^ 9 := by norm_num
    nlinarith
  have hom : |v| ≤ om := by
    have h1 := hB.hi
    have h2 : om = 2 ^ 100 * 2 ^ 900 := by unfold om; rw [← pow_add]
    rw [h2]
    generalize (2 : ℝ) ^ 900 = Z at *
    have : (2 : ℝ) ≤ 2 ^ 100 := by norm_num
    nlinarith
  obtain ⟨w, hw, hd⟩ := round64_run hom
  refine ⟨w, ha.trans (congrArg some hw), hx, ?_⟩
  have htiny : ((2 : ℝ) ^ 1000)⁻¹ ≤ B * (1 / 2) := by
    have h1 := hB.lo
    have h2 : ((2 : ℝ) ^ 1000)⁻¹ = (2 ^ 900)⁻¹ * (2 ^ 100)⁻¹ := by rw [← mul_inv, ← pow_add]
    rw [h2]
    generalize ((2 : ℝ) ^ 900)⁻¹ = Z at *
    have h3 : ((2 : ℝ) ^ 100)⁻¹ ≤ 1 / 2 := by norm_num
    have h4 : (0 : ℝ) ≤ ((2 : ℝ) ^ 100)⁻¹ := by positivity
    nlinarith
  have h3 : |w - v| ≤ 2 * uu * B := by
    refine hd.trans ?_
    have := uu_pos
    rw [← mul_add]
    have : |v| + (2 ^ 1000)⁻¹ ≤ 2 * B := by linarith
    nlinarith
  have h4 : |w - x| ≤ |w - v| + |v - x| := abs_sub_le w v x
  linarith

theorem mono (h : Run a x B n) (hn : n ≤ k) : Run a x B k := by
  obtain ⟨v, hv, h1, h2⟩ := h
  have hB : 0 ≤ B := (abs_nonneg x).trans h1
  exact ⟨v, hv, h1, h2.trans (by have := uu_pos; gcongr)⟩

theorem monoB (h : Run a x B n) (hn : 0 ≤ n) (hB : B ≤ C) : Run a x C n := by
  obtain ⟨v, hv, h1, h2⟩ := h
  exact ⟨v, hv, h1.trans hB, h2.trans (by have := uu_pos; gcongr)⟩

theorem exact {v : ℝ} (h : Is a v) : Run a v |v| 0 := ⟨v, h, le_rfl, by simp⟩

theorem const {v : ℝ} (h : Binary64 v) (h0 : 0 ≤ v) : Run (ofR v : Fl binary64) v v 0 := ⟨v, is_ofR h, by rw [abs_of_nonneg h0], by simp⟩

theorem neg (h : Run a x B n) : Run (-a) (-x) B n := by
  obtain ⟨v, hv, h1, h2⟩ := h
  exact ⟨-v, value_neg hv, by rwa [abs_neg], by rwa [show -v - -x = -(v - x) by ring, abs_neg]⟩

theorem add (ha : Run a x B n) (hb : Run b y C n) (hn : 0 ≤ n) (hn' : n ≤ 10 ^ 6) (hM : Mid (B + C)) : Run (a + b) (x + y) (B + C) (n + 2) := by
  obtain ⟨v, hv, a1, a2⟩ := ha
  obtain ⟨w, hw, b1, b2⟩ := hb
  refine of_round (v := v + w) (value_add hv hw) ((abs_add_le x y).trans (add_le_add a1 b1)) hM hn hn' ?_
  rw [show v + w - (x + y) = (v - x) + (w - y) by ring, mul_add]
  exact (abs_add_le _ _).trans (add_le_add a2 b2)

theorem sub (ha : Run a x B n) (hb : Run b y C n) (hn : 0 ≤ n) (hn' : n ≤ 10 ^ 6) (hM : Mid (B + C)) : Run (a - b) (x - y) (B + C) (n + 2) := by
  rw [sub_eq_add_neg x y]
  exact ha.add hb.neg hn hn' hM

theorem mul (ha : Run a x B n) (hb : Run b y C k) (hn : 0 ≤ n) (hk : 0 ≤ k) (hn' : n ≤ 10 ^ 5) (hk' : k ≤ 10 ^ 5) (hM : Mid (B * C)) :
    Run (a * b) (x * y) (B * C) (n + k + 3) := by
  obtain ⟨v, hv, a1, a2⟩ := ha
  obtain ⟨w, hw, b1, b2⟩ := hb
  have hB : 0 ≤ B := (abs_nonneg x).trans a1
  have hC : 0 ≤ C := (abs_nonneg y).trans b1
  have hu := uu_pos
  have hu' : uu ≤ 1 / 10 ^ 15 := by unfold uu; norm_num
  have := of_round (a := a * b) (x := x * y) (n := n + k + 1) (v := v * w) (value_mul hv hw)
    (by rw [abs_mul]; exact mul_le_mul a1 b1 (abs_nonneg _) hB) hM (by linarith) (by linarith) ?_
  · exact this.mono (by linarith)
  · rw [show v * w - x * y = (v - x) * (w - y) + x * (w - y) + (v - x) * y by ring]
    have t1 : |(v - x) * (w - y)| ≤ n * uu * B * (k * uu * C) := by
      rw [abs_mul]; exact mul_le_mul a2 b2 (abs_nonneg _) (by positivity)
    have t2 : |x * (w - y)| ≤ B * (k * uu * C) := by rw [abs_mul]; exact mul_le_mul a1 b2 (abs_nonneg _) hB
    have t3 : |(v - x) * y| ≤ n * uu * B * C := by rw [abs_mul]; exact mul_le_mul a2 b1 (abs_nonneg _) (by positivity)
    have t4 : n * uu * B * (k * uu * C) ≤ uu * (B * C) := by
      have e : n * uu * B * (k * uu * C) = n * k * uu * (uu * (B * C)) := by ring
      have : n * k * uu ≤ 1 := by
        calc n * k * uu ≤ 10 ^ 5 * 10 ^ 5 * (1 / 10 ^ 15) := by gcongr
          _ ≤ 1 := by norm_num
      rw [e]
      have : 0 ≤ uu * (B * C) := by positivity
      nlinarith
    have := abs_add_three ((v - x) * (w - y)) (x * (w - y)) ((v - x) * y)
    nlinarith

theorem divNum (ha : Run a x B n) {c : ℝ} (hb : Is b c) (hc : 0 < c) (hn : 0 ≤ n) (hn' : n ≤ 10 ^ 6) (hM : Mid (B / c)) :
    Run (a / b) (x / c) (B / c) (n + 2) := by
  obtain ⟨v, hv, a1, a2⟩ := ha
  have hd : IsE (a / b) (binary64.rnd (v / c)) := by
    have h' : (c : EReal) ≠ 0 := by exact_mod_cast hc.ne'
    change (div a b).value = _
    unfold div
    simp only [show a.value = some (v : EReal) from hv, show b.value = some (c : EReal) from hb, val_of hv, val_of hb, EReal.toReal_coe]
    simp [value_round, hc.ne']
  refine of_round hd (by rw [abs_div, abs_of_pos hc]; gcongr) hM hn hn' ?_
  rw [← sub_div, abs_div, abs_of_pos hc, ← mul_div_assoc]
  gcongr

theorem inv {s : ℝ} (ha : Is a s) (hs : 0 < s) (hM : Mid s⁻¹) : Run (a⁻¹) s⁻¹ s⁻¹ 2 := by
  have i1 : IsE (a⁻¹) (binary64.rnd (1 / s)) := value_div_one ha hs.ne'
  rw [one_div] at i1
  have := of_round (n := 0) (x := s⁻¹) (B := s⁻¹) i1 (by rw [abs_of_pos (inv_pos.2 hs)]) hM le_rfl (by norm_num) (by simp)
  rwa [zero_add] at this

theorem sqrt (ha : Run a x x n) (hx : 0 < x) (hn : 0 ≤ n) (hn' : n ≤ 10 ^ 6) (hM : Mid (Real.sqrt x)) :
    Run (NumOps.sqrt a) (Real.sqrt x) (Real.sqrt x) (n + 2) := by
  obtain ⟨v, hv, a1, a2⟩ := ha
  have hu' : uu ≤ 1 / 10 ^ 15 := by unfold uu; norm_num
  have hv0 : 0 ≤ v := by
    have h1 : n * uu ≤ 1 := by
      calc n * uu ≤ 10 ^ 6 * (1 / 10 ^ 15) := by have := uu_pos; gcongr
        _ ≤ 1 := by norm_num
    have := (abs_le.1 a2).1
    nlinarith
  have hs : IsE (NumOps.sqrt a) (binary64.rnd (Real.sqrt v)) := by
    have := (Fl.sqrt_value hv).2 (by exact_mod_cast hv0)
    rw [show sqrtE binary64 (v : EReal) = binary64.rnd (Real.sqrt v) by simp [sqrtE]] at this
    exact this
  refine of_round hs (by rw [abs_of_nonneg (Real.sqrt_nonneg _)]) hM hn hn' ?_
  have hr := Real.sqrt_pos.2 hx
  have hq := Real.sqrt_nonneg v
  have e : (Real.sqrt v - Real.sqrt x) * (Real.sqrt v + Real.sqrt x) = v - x := by
    nlinarith [Real.sq_sqrt hv0, Real.sq_sqrt hx.le]
  have e2 : |Real.sqrt v - Real.sqrt x| * (Real.sqrt v + Real.sqrt x) = |v - x| := by
    rw [← e, abs_mul, abs_of_pos (show 0 < Real.sqrt v + Real.sqrt x by linarith)]
  have h1 : |Real.sqrt v - Real.sqrt x| * Real.sqrt x ≤ n * uu * Real.sqrt x * Real.sqrt x := by
    calc |Real.sqrt v - Real.sqrt x| * Real.sqrt x ≤ |Real.sqrt v - Real.sqrt x| * (Real.sqrt v + Real.sqrt x) :=
          mul_le_mul_of_nonneg_left (by linarith) (abs_nonneg _)
      _ = |v - x| := e2
      _ ≤ n * uu * x := a2
      _ = _ := by rw [mul_assoc (n * uu), Real.mul_self_sqrt hx.le]
  exact le_of_mul_le_mul_right h1 hr

theorem ln (ha : Run a x B n) (hx : 0 < x) (hn : 0 ≤ n) (hn' : 2 * n ≤ 10 ^ 6) (hs : 2 * (n * uu * B) ≤ x) (hM : Mid (|Real.log x| + B / x)) :
    Run (NumOps.ln a) (Real.log x) (|Real.log x| + B / x) (2 * n + 2) := by
  obtain ⟨v, hv, a1, a2⟩ := ha
  have hB : 0 ≤ B := (abs_nonneg x).trans a1
  have hv2 := abs_le.1 a2
  have hv0 : 0 < v := by linarith
  have hl : IsE (NumOps.ln a) (binary64.rnd (Real.log v)) := by
    change (Fl.ln a).value = _
    unfold Fl.ln
    simp only [show a.value = some (v : EReal) from hv, val_of hv, EReal.toReal_coe]
    have n1 : ¬ ((v : EReal) < 0) := not_lt.2 (by exact_mod_cast hv0.le)
    have n2 : ¬ ((v : EReal) = 0) := by exact_mod_cast hv0.ne'
    simp [n1, n2]
    rfl
  refine of_round hl ?_ hM (by linarith) hn' ?_
  · have : 0 ≤ B / x := by positivity
    linarith
  · have key : ∀ p q : ℝ, 0 < p → 0 < q → Real.log p - Real.log q ≤ (p - q) / q := by
      intro p q hp hq
      rw [← Real.log_div hp.ne' hq.ne']
      have := Real.log_le_sub_one_of_pos (div_pos hp hq)
      rw [sub_div, div_self hq.ne']
      exact this
    have hu := uu_pos
    have hE : 2 * n * uu * (|Real.log x| + B / x) = 2 * (n * uu * B) / x + 2 * n * uu * |Real.log x| := by ring
    have hE0 : 0 ≤ 2 * n * uu * |Real.log x| := by positivity
    rw [hE, abs_le]
    constructor
    · have k1 := key x v hx hv0
      have k2 : (x - v) / v ≤ 2 * (n * uu * B) / x := by
        rw [div_le_div_iff₀ hv0 hx]
        have : 0 ≤ n * uu * B := by positivity
        nlinarith
      linarith
    · have k1 := key v x hv0 hx
      have k2 : (v - x) / x ≤ 2 * (n * uu * B) / x := by
        have : 0 ≤ n * uu * B := by positivity
        gcongr
        linarith
      linarith

end Run

/-- A running error with a power of ten for the size of `B`. -/
structure Track (a : Fl binary64) (x B : ℝ) (n k : ℕ) : Prop where
  run : Run a x B n
  lo : (10 ^ k)⁻¹ ≤ B
  hi : B ≤ 10 ^ k

theorem mid_of {B : ℝ} {k : ℕ} (lo : (10 ^ k)⁻¹ ≤ B) (hi : B ≤ 10 ^ k) (hk : k ≤ 250) : Mid B := by
  have h : (10 : ℝ) ^ k ≤ 2 ^ 900 :=
    calc (10 : ℝ) ^ k ≤ 10 ^ 250 := pow_le_pow_right₀ (by norm_num) hk
      _ = (10 ^ 10) ^ 25 := by rw [← pow_mul]
      _ ≤ (2 ^ 36) ^ 25 := pow_le_pow_left₀ (by norm_num) (by norm_num) 25
      _ = 2 ^ 900 := by rw [← pow_mul]
  exact ⟨(inv_anti₀ (by positivity) h).trans lo, hi.trans h⟩

namespace Track
variable {a b : Fl binary64} {x y B C : ℝ} {n m k l : ℕ}

theorem nonneg (h : Track a x B n k) : 0 ≤ B := (by positivity : (0 : ℝ) ≤ (10 ^ k)⁻¹).trans h.lo

theorem neg (h : Track a x B n k) : Track (-a) (-x) B n k := ⟨h.run.neg, h.lo, h.hi⟩

theorem const (c : ℕ) (h0 : 0 < c) (h : c ≤ 99) : Track (ofR (c : ℝ) : Fl binary64) c c 0 2 := by
  have h1 : (1 : ℝ) ≤ c := by exact_mod_cast h0
  have h2 : (c : ℝ) ≤ 99 := by exact_mod_cast h
  refine ⟨by exact_mod_cast Run.const (binary64_nat (by omega)) (by linarith), ?_, ?_⟩ <;> norm_num <;> linarith

theorem range_add (h1 : (10 ^ k)⁻¹ ≤ B) (h2 : B ≤ 10 ^ k) (h3 : (10 ^ l)⁻¹ ≤ C) (h4 : C ≤ 10 ^ l) :
    ((10 : ℝ) ^ (max k l + 1))⁻¹ ≤ B + C ∧ B + C ≤ 10 ^ (max k l + 1) := by
  have e1 : (10 : ℝ) ^ k ≤ 10 ^ max k l := pow_le_pow_right₀ (by norm_num) (le_max_left _ _)
  have e2 : (10 : ℝ) ^ l ≤ 10 ^ max k l := pow_le_pow_right₀ (by norm_num) (le_max_right _ _)
  have e3 : (0 : ℝ) < 10 ^ max k l := by positivity
  have e4 : (10 : ℝ) ^ (max k l + 1) = 10 ^ max k l * 10 := pow_succ _ _
  have e5 : (10 : ℝ) ^ k ≤ 10 ^ (max k l + 1) := by rw [e4]; linarith
  have e6 : (0 : ℝ) ≤ (10 ^ l)⁻¹ := by positivity
  have e7 := inv_anti₀ (by positivity) e5
  exact ⟨by linarith, by rw [e4]; linarith⟩

theorem range_mul (h1 : (10 ^ k)⁻¹ ≤ B) (h2 : B ≤ 10 ^ k) (h3 : (10 ^ l)⁻¹ ≤ C) (h4 : C ≤ 10 ^ l) :
    ((10 : ℝ) ^ (k + l))⁻¹ ≤ B * C ∧ B * C ≤ 10 ^ (k + l) := by
  have p1 : (0 : ℝ) ≤ (10 ^ k)⁻¹ := by positivity
  have p2 : (0 : ℝ) ≤ (10 ^ l)⁻¹ := by positivity
  rw [pow_add, mul_inv]
  exact ⟨mul_le_mul h1 h3 p2 (p1.trans h1), mul_le_mul h2 h4 (p2.trans h3) (by positivity)⟩

theorem add (ha : Track a x B n k) (hb : Track b y C m l) (hn : max n m ≤ 10 ^ 6 := by norm_num) (hk : max k l + 1 ≤ 250 := by norm_num) :
    Track (a + b) (x + y) (B + C) (max n m + 2) (max k l + 1) := by
  obtain ⟨r1, r2⟩ := range_add ha.lo ha.hi hb.lo hb.hi
  have i1 : (n : ℝ) ≤ (max n m : ℕ) := by exact_mod_cast le_max_left n m
  have i2 : (m : ℝ) ≤ (max n m : ℕ) := by exact_mod_cast le_max_right n m
  have i3 : ((max n m : ℕ) : ℝ) ≤ 10 ^ 6 := by exact_mod_cast hn
  have := (ha.run.mono i1).add (hb.run.mono i2) (Nat.cast_nonneg _) i3 (mid_of r1 r2 hk)
  refine ⟨?_, r1, r2⟩
  push_cast at this ⊢
  exact this

theorem sub (ha : Track a x B n k) (hb : Track b y C m l) (hn : max n m ≤ 10 ^ 6 := by norm_num) (hk : max k l + 1 ≤ 250 := by norm_num) :
    Track (a - b) (x - y) (B + C) (max n m + 2) (max k l + 1) := by
  rw [sub_eq_add_neg x y]
  exact ha.add hb.neg hn hk

theorem mul (ha : Track a x B n k) (hb : Track b y C m l) (hn : n ≤ 10 ^ 5 := by norm_num) (hm : m ≤ 10 ^ 5 := by norm_num)
    (hk : k + l ≤ 250 := by norm_num) : Track (a * b) (x * y) (B * C) (n + m + 3) (k + l) := by
  obtain ⟨r1, r2⟩ := range_mul ha.lo ha.hi hb.lo hb.hi
  have := ha.run.mul hb.run (Nat.cast_nonneg _) (Nat.cast_nonneg _) (by exact_mod_cast hn) (by exact_mod_cast hm) (mid_of r1 r2 hk)
  refine ⟨?_, r1, r2⟩
  push_cast at this ⊢
  exact this

theorem divNum (ha : Track a x B n k) (c : ℕ) (h0 : 0 < c := by norm_num) (h : c ≤ 99 := by norm_num) (hn : n ≤ 10 ^ 6 := by norm_num)
    (hk : k + 2 ≤ 250 := by norm_num) : Track (a / ofR (c : ℝ)) (x / c) (B / c) (n + 2) (k + 2) := by
  have hc : (1 : ℝ) ≤ c := by exact_mod_cast h0
  have hc' : (c : ℝ) ≤ 99 := by exact_mod_cast h
  have c1 : ((10 : ℝ) ^ 2)⁻¹ ≤ (c : ℝ)⁻¹ := inv_anti₀ (by linarith) (by linarith)
  have c2 : (c : ℝ)⁻¹ ≤ 10 ^ 2 := (inv_le_one_of_one_le₀ hc).trans (by norm_num)
  obtain ⟨r1, r2⟩ := range_mul ha.lo ha.hi c1 c2
  rw [← div_eq_mul_inv] at r1 r2
  have := ha.run.divNum (is_ofR (binary64_nat (n := c) (by omega))) (by linarith) (Nat.cast_nonneg _) (by exact_mod_cast hn) (mid_of r1 r2 hk)
  refine ⟨?_, r1, r2⟩
  push_cast at this ⊢
  exact this

theorem sqrt (ha : Track a x x n k) (hn : n ≤ 10 ^ 6 := by norm_num) (hk : k ≤ 250 := by norm_num) :
    Track (NumOps.sqrt a) (Real.sqrt x) (Real.sqrt x) (n + 2) k := by
  have h0 : (0 : ℝ) < (10 ^ k)⁻¹ := by positivity
  have hx : 0 < x := lt_of_lt_of_le h0 ha.lo
  have h1 : (1 : ℝ) ≤ 10 ^ k := one_le_pow₀ (by norm_num)
  have h2 : ((10 : ℝ) ^ k)⁻¹ ≤ 1 := inv_le_one_of_one_le₀ h1
  have r1 : (10 ^ k)⁻¹ ≤ Real.sqrt x := Real.le_sqrt_of_sq_le (by nlinarith [ha.lo])
  have r2 : Real.sqrt x ≤ 10 ^ k := Real.sqrt_le_iff.2 ⟨by positivity, by nlinarith [ha.hi]⟩
  have := ha.run.sqrt hx (Nat.cast_nonneg _) (by exact_mod_cast hn) (mid_of r1 r2 hk)
  exact ⟨by push_cast; exact this, r1, r2⟩

/-- A rounded constant. -/
theorem constR {c : ℝ} (h1 : (10 ^ 2)⁻¹ ≤ c) (h2 : c ≤ 10 ^ 2) : Track (ofR c : Fl binary64) c c 2 2 := by
  have hc : 0 < c := lt_of_lt_of_le (by norm_num) h1
  have hv : IsE (ofR c : Fl binary64) (binary64.rnd c) := value_round _ _
  have := Run.of_round (n := 0) (x := c) (B := c) hv (by rw [abs_of_pos hc]) (mid_of h1 h2 (by norm_num)) le_rfl (by norm_num) (by simp)
  exact ⟨by simpa using this, h1, h2⟩

/-- Division by a positive number known with a relative error. -/
theorem div (ha : Track a x B n k) (hb : Track b y y m l) (hn : n ≤ 10 ^ 4 := by norm_num) (hm : m ≤ 10 ^ 4 := by norm_num)
    (hk : k + l ≤ 250 := by norm_num) : Track (a / b) (x / y) (B / y) (2 * n + 2 * m + 2) (k + l) := by
  have h0 : (0 : ℝ) < (10 ^ l)⁻¹ := by positivity
  have hy : 0 < y := lt_of_lt_of_le h0 hb.lo
  have y1 : ((10 : ℝ) ^ l)⁻¹ ≤ y⁻¹ := inv_anti₀ hy hb.hi
  have y2 : y⁻¹ ≤ (10 : ℝ) ^ l := by rw [inv_le_comm₀ hy (by positivity)]; exact hb.lo
  obtain ⟨r1, r2⟩ := range_mul ha.lo ha.hi y1 y2
  rw [← div_eq_mul_inv] at r1 r2
  have hB := ha.nonneg
  obtain ⟨v, hv, a1, a2⟩ := ha.run
  obtain ⟨w, hw, -, b2⟩ := hb.run
  have hu := uu_pos
  have hu' : uu ≤ 1 / 10 ^ 15 := by unfold uu; norm_num
  have hm' : (m : ℝ) ≤ 10 ^ 4 := by exact_mod_cast hm
  have hmu : m * uu ≤ 1 / 2 := by
    calc m * uu ≤ 10 ^ 4 * (1 / 10 ^ 15) := by gcongr
      _ ≤ 1 / 2 := by norm_num
  have hw2 : y / 2 ≤ w := by
    have := (abs_le.1 b2).1
    nlinarith
  have hw0 : 0 < w := by linarith
  have hd : IsE (a / b) (binary64.rnd (v / w)) := by
    have h' : (w : EReal) ≠ 0 := by exact_mod_cast hw0.ne'
    change (Fl.div a b).value = _
    unfold Fl.div
    simp only [show a.value = some (v : EReal) from hv, show b.value = some (w : EReal) from hw, val_of hv, val_of hw, EReal.toReal_coe]
    simp [value_round, hw0.ne']
  have key : |v / w - x / y| ≤ (2 * n + 2 * m) * uu * (B / y) := by
    have e : v / w - x / y = ((v - x) * y - x * (w - y)) / (w * y) := by field_simp; ring
    rw [e, abs_div, abs_of_pos (by positivity : 0 < w * y), div_le_iff₀ (by positivity)]
    have t1 : |(v - x) * y| ≤ n * uu * B * y := by rw [abs_mul, abs_of_pos hy]; gcongr
    have t2 : |x * (w - y)| ≤ B * (m * uu * y) := by rw [abs_mul]; exact mul_le_mul a1 b2 (abs_nonneg _) hB
    have t3 : |(v - x) * y - x * (w - y)| ≤ |(v - x) * y| + |x * (w - y)| := abs_sub _ _
    have e2 : (2 * n + 2 * m) * uu * (B / y) * (w * y) = (n + m) * uu * B * (2 * w) := by field_simp
    rw [e2]
    have : (n + m) * uu * B * y ≤ (n + m) * uu * B * (2 * w) := by gcongr; linarith
    nlinarith
  have := Run.of_round (a := a / b) (x := x / y) (B := B / y) (n := 2 * n + 2 * m) hd (by rw [abs_div, abs_of_pos hy]; gcongr) (mid_of r1 r2 hk)
    (by positivity) (by
      have : (n : ℝ) ≤ 10 ^ 4 := by exact_mod_cast hn
      linarith) key
  refine ⟨?_, r1, r2⟩
  push_cast
  exact this

theorem mono (h : Track a x B n k) {n' : ℕ} (hn : n ≤ n') : Track a x B n' k := ⟨h.run.mono (by exact_mod_cast hn), h.lo, h.hi⟩

end Track
end Qcd

namespace Qcd
open Fl Spec

/-- A computed number with a relative error. -/
def Rel (a : Fl binary64) (x e : ℝ) : Prop := ∃ v : ℝ, Is a v ∧ |v - x| ≤ e * |x|

namespace Rel
variable {a b : Fl binary64} {x y e f : ℝ} {k l : ℕ}

theorem of_round {v : ℝ} (ha : IsE a (binary64.rnd v)) (hx : Mid |x|) (he : 0 ≤ e) (he' : e ≤ 1 / 2) (h : |v - x| ≤ e * |x|) : Rel a x (e + 1 / 10 ^ 15) := by
  have hx0 := hx.pos
  have hv : |v| ≤ 2 * |x| := by
    have h1 := abs_add_le x (v - x)
    rw [add_sub_cancel] at h1
    nlinarith
  have hom : |v| ≤ om := by
    have h1 := hx.hi
    have h2 : om = 2 ^ 100 * 2 ^ 900 := by unfold om; rw [← pow_add]
    rw [h2]
    generalize (2 : ℝ) ^ 900 = Z at *
    have : (2 : ℝ) ≤ 2 ^ 100 := by norm_num
    nlinarith
  obtain ⟨w, hw, hd⟩ := round64_run hom
  have htiny : ((2 : ℝ) ^ 1000)⁻¹ ≤ |x| * 1 := by
    have h1 := hx.lo
    have h2 : ((2 : ℝ) ^ 1000)⁻¹ = (2 ^ 900)⁻¹ * (2 ^ 100)⁻¹ := by rw [← mul_inv, ← pow_add]
    rw [h2]
    have h3 : ((2 : ℝ) ^ 100)⁻¹ ≤ 1 := inv_le_one_of_one_le₀ (one_le_pow₀ (by norm_num))
    exact mul_le_mul h1 h3 (by positivity) hx0.le
  refine ⟨w, ha.trans (congrArg some hw), ?_⟩
  have h4 : |w - x| ≤ |w - v| + |v - x| := abs_sub_le w v x
  have h5 : |w - v| ≤ 3 * uu * |x| := by
    refine hd.trans ?_
    have := uu_pos
    rw [← mul_add]
    have : |v| + (2 ^ 1000)⁻¹ ≤ 3 * |x| := by linarith
    nlinarith
  have h6 : 3 * uu ≤ 1 / 10 ^ 15 := by unfold uu; norm_num
  nlinarith

theorem inv (h : Rel a x e) (hx : Mid |x|) (hx' : Mid |x⁻¹|) (he : 0 ≤ e) (he' : e ≤ 1 / 4) : Rel (a⁻¹) x⁻¹ (2 * e + 1 / 10 ^ 15) := by
  obtain ⟨v, hv, h1⟩ := h
  have hx0 := hx.pos
  have hxn : x ≠ 0 := abs_pos.1 hx0
  have hv1 : |x| / 2 ≤ |v| := by
    have h1' := abs_add_le v (x - v)
    rw [add_sub_cancel, abs_sub_comm x v] at h1'
    nlinarith
  have hvn : v ≠ 0 := abs_pos.1 (by linarith)
  have i1 : IsE (a⁻¹) (binary64.rnd (1 / v)) := value_div_one hv hvn
  refine of_round i1 hx' (by linarith) (by linarith) ?_
  have e1 : 1 / v - x⁻¹ = -((v - x) * v⁻¹) * x⁻¹ := by field_simp; ring
  rw [e1, abs_mul]
  refine mul_le_mul_of_nonneg_right ?_ (abs_nonneg _)
  rw [abs_neg, abs_mul, abs_inv, ← div_eq_mul_inv, div_le_iff₀ (by linarith)]
  nlinarith

theorem mul (h : Rel a x e) (hb : Rel b y f) (hx : Mid |x * y|) (he : 0 ≤ e) (he' : e ≤ 1 / 8) (hf : 0 ≤ f) (hf' : f ≤ 1 / 8) :
    Rel (a * b) (x * y) (2 * (e + f) + 1 / 10 ^ 15) := by
  obtain ⟨v, hv, h1⟩ := h
  obtain ⟨w, hw, h2⟩ := hb
  refine of_round (value_mul hv hw) hx (by linarith) (by linarith) ?_
  rw [show v * w - x * y = (v - x) * (w - y) + x * (w - y) + (v - x) * y by ring]
  have t1 : |(v - x) * (w - y)| ≤ e * |x| * (f * |y|) := by
    rw [abs_mul]; exact mul_le_mul h1 h2 (abs_nonneg _) (by positivity)
  have t2 : |x * (w - y)| ≤ |x| * (f * |y|) := by rw [abs_mul]; gcongr
  have t3 : |(v - x) * y| ≤ e * |x| * |y| := by rw [abs_mul]; gcongr
  have := abs_add_three ((v - x) * (w - y)) (x * (w - y)) ((v - x) * y)
  rw [abs_mul x y]
  have hp : 0 ≤ |x| * |y| := by positivity
  have : e * |x| * (f * |y|) ≤ f * (|x| * |y|) := by
    have : e * |x| * (f * |y|) = e * (f * (|x| * |y|)) := by ring
    rw [this]
    have : 0 ≤ f * (|x| * |y|) := by positivity
    nlinarith
  nlinarith

end Rel
end Qcd
