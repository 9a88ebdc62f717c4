import Verif.Lemmas.Residues
import Verif.Spec.SmallMomenta
import Verif.Lemmas.Euclidean

/-! # Lemmas on chains of rounded operations: the intervals of the results -/

namespace Qcd
open Fl Spec

/-- A bound far from overflow. -/
noncomputable def om : ℝ := 2 ^ 1000

theorem om_pos : 0 < om := by unfold om; positivity

theorem round64_abs {x : ℝ} (h : |x| ≤ om) : ∃ y : ℝ, round64 x = (y : EReal) ∧ |y - x| ≤ 1 / 10 ^ 15 * (|x| + 1) := by
  have hfin : |x| < 2 ^ (1024 : ℤ) - 2 ^ (970 : ℤ) := by
    have e1 : om = 2 ^ (30 : ℤ) * 2 ^ (970 : ℤ) := by
      rw [← zpow_add₀ (by norm_num), show (30 : ℤ) + 970 = ((1000 : ℕ) : ℤ) by norm_num, zpow_natCast]; rfl
    have e2 : (2 : ℝ) ^ (1024 : ℤ) = 2 ^ (54 : ℤ) * 2 ^ (970 : ℤ) := by rw [← zpow_add₀ (by norm_num)]; norm_num
    have e3 : (0 : ℝ) < 2 ^ (970 : ℤ) := by positivity
    rw [e1] at h
    rw [e2]
    have : ∀ B : ℝ, 0 < B → |x| ≤ 2 ^ (30 : ℤ) * B → |x| < 2 ^ (54 : ℤ) * B - B := fun B hB h' => by norm_num at h' ⊢; linarith
    exact this _ e3 h
  obtain ⟨y, hy⟩ := round64_finite hfin
  refine ⟨y, hy, ?_⟩
  have herr := abs_roundPos_sub (x := |x|)
  have hxn := abs_nonneg x
  have hrel : |(roundPos (|x|)) - (|x|)| ≤ 2 ^ (-53 : ℤ) * (|x| + 1) := by
    refine herr.trans ?_
    have hp : (0 : ℝ) < 2 ^ (-53 : ℤ) := by positivity
    rw [show expo |x| - 53 = -53 + expo |x| by ring, zpow_add₀ (by norm_num)]
    refine mul_le_mul_of_nonneg_left ?_ hp.le
    by_cases hc : -1022 < expo |x|
    · rcases hxn.eq_or_lt with h0 | h0
      · rw [← h0]
        have : expo (0 : ℝ) ≤ 0 := by unfold expo; simp
        have := zpow_le_zpow_right₀ (by norm_num : (1 : ℝ) ≤ 2) this
        rw [zpow_zero] at this
        linarith
      · linarith [zpow_expo_le h0 hc]
    · have := zpow_le_zpow_right₀ (by norm_num : (1 : ℝ) ≤ 2) (show expo |x| ≤ 0 by omega)
      rw [zpow_zero] at this
      linarith
  have h53 : |round53 x - x| ≤ 2 ^ (-53 : ℤ) * (|x| + 1) := by
    unfold round53
    split_ifs with h
    · rw [abs_of_neg h] at hrel ⊢
      rwa [show -roundPos (-x) - x = -(roundPos (-x) - -x) by ring, abs_neg]
    · rwa [abs_of_nonneg (not_lt.1 h)] at hrel ⊢
  rw [round64_real hy] at h53
  refine h53.trans (mul_le_mul_of_nonneg_right ?_ (by linarith))
  norm_num

theorem Spec.In.weaken {a : Fl binary64} {lo hi lo' hi' : ℝ} (h : In a lo hi) (h1 : lo' ≤ lo) (h2 : hi ≤ hi') : In a lo' hi' := by
  obtain ⟨v, hv, a1, a2⟩ := h
  exact ⟨v, hv, h1.trans a1, a2.trans h2⟩

/-- A rounded result. -/
theorem Spec.In.of_round {a : Fl binary64} {x lo hi M : ℝ} (ha : IsE a (binary64.rnd x)) (hM : |x| ≤ M) (hO : M ≤ om)
    (h1 : lo + 1 / 10 ^ 15 * (M + 1) ≤ x) (h2 : x + 1 / 10 ^ 15 * (M + 1) ≤ hi) : In a lo hi := by
  obtain ⟨y, hy, he⟩ := round64_abs (hM.trans hO)
  have hb : (1 : ℝ) / 10 ^ 15 * (|x| + 1) ≤ 1 / 10 ^ 15 * (M + 1) := by gcongr
  have := abs_le.1 (he.trans hb)
  exact ⟨y, ha.trans (congrArg some hy), by linarith, by linarith⟩

variable {a b : Fl binary64} {l1 h1 l2 h2 : ℝ}

theorem Spec.In.add (ha : In a l1 h1) (hb : In b l2 h2) {lo hi : ℝ} (M : ℝ) (hO : M ≤ om) (m1 : -M ≤ l1 + l2) (m2 : h1 + h2 ≤ M)
    (e1 : lo + 1 / 10 ^ 15 * (M + 1) ≤ l1 + l2) (e2 : h1 + h2 + 1 / 10 ^ 15 * (M + 1) ≤ hi) : In (a + b) lo hi := by
  obtain ⟨v, hv, a1, a2⟩ := ha
  obtain ⟨w, hw, b1, b2⟩ := hb
  exact In.of_round (x := v + w) (M := M) (value_add hv hw) (by rw [abs_le]; constructor <;> linarith) hO (by linarith) (by linarith)

theorem Spec.In.sub (ha : In a l1 h1) (hb : In b l2 h2) {lo hi : ℝ} (M : ℝ) (hO : M ≤ om) (m1 : -M ≤ l1 - h2) (m2 : h1 - l2 ≤ M)
    (e1 : lo + 1 / 10 ^ 15 * (M + 1) ≤ l1 - h2) (e2 : h1 - l2 + 1 / 10 ^ 15 * (M + 1) ≤ hi) : In (a - b) lo hi := by
  obtain ⟨v, hv, a1, a2⟩ := ha
  obtain ⟨w, hw, b1, b2⟩ := hb
  have hs : IsE (a - b) (binary64.rnd (v - w)) := by
    have := value_add hv (value_neg hw)
    rwa [← sub_eq_add_neg] at this
  exact In.of_round (x := v - w) (M := M) hs (by rw [abs_le]; constructor <;> linarith) hO (by linarith) (by linarith)

theorem Spec.In.neg (ha : In a l1 h1) : In (-a) (-h1) (-l1) := by
  obtain ⟨v, hv, a1, a2⟩ := ha
  exact ⟨-v, value_neg hv, by linarith, by linarith⟩

/-- Products of non-negative numbers. -/
theorem Spec.In.mul (ha : In a l1 h1) (hb : In b l2 h2) (p1 : 0 ≤ l1) (p2 : 0 ≤ l2) {lo hi : ℝ} (M : ℝ) (hO : M ≤ om) (m : h1 * h2 ≤ M)
    (e1 : lo + 1 / 10 ^ 15 * (M + 1) ≤ l1 * l2) (e2 : h1 * h2 + 1 / 10 ^ 15 * (M + 1) ≤ hi) : In (a * b) lo hi := by
  obtain ⟨v, hv, a1, a2⟩ := ha
  obtain ⟨w, hw, b1, b2⟩ := hb
  have q1 : l1 * l2 ≤ v * w := mul_le_mul a1 b1 p2 (by linarith)
  have q2 : v * w ≤ h1 * h2 := mul_le_mul a2 b2 (by linarith) (by linarith)
  have q0 : 0 ≤ v * w := mul_nonneg (by linarith) (by linarith)
  exact In.of_round (x := v * w) (M := M) (value_mul hv hw) (by rw [abs_of_nonneg q0]; linarith) hO (by linarith) (by linarith)

/-- Products of numbers of any sign. -/
theorem Spec.In.mulAbs {A B : ℝ} (ha : In a (-A) A) (hb : In b (-B) B) {C : ℝ} (M : ℝ) (hO : M ≤ om) (m : A * B ≤ M)
    (e : A * B + 1 / 10 ^ 15 * (M + 1) ≤ C) : In (a * b) (-C) C := by
  obtain ⟨v, hv, a1, a2⟩ := ha
  obtain ⟨w, hw, b1, b2⟩ := hb
  have hA : |v| ≤ A := abs_le.2 ⟨a1, a2⟩
  have hB : |w| ≤ B := abs_le.2 ⟨b1, b2⟩
  have hvw : |v * w| ≤ A * B := by rw [abs_mul]; exact mul_le_mul hA hB (abs_nonneg _) ((abs_nonneg _).trans hA)
  have := abs_le.1 hvw
  exact In.of_round (x := v * w) (M := M) (value_mul hv hw) (hvw.trans m) hO (by linarith) (by linarith)

/-- Quotients by a number. -/
theorem Spec.In.divNum (ha : In a l1 h1) {c : ℝ} (hb : Is b c) (hc : 0 < c) {lo hi : ℝ} (M : ℝ) (hO : M ≤ om) (m1 : -M ≤ l1 / c)
    (m2 : h1 / c ≤ M) (e1 : lo + 1 / 10 ^ 15 * (M + 1) ≤ l1 / c) (e2 : h1 / c + 1 / 10 ^ 15 * (M + 1) ≤ hi) : In (a / b) lo hi := by
  obtain ⟨v, hv, a1, a2⟩ := ha
  have q1 : l1 / c ≤ v / c := by gcongr
  have q2 : v / c ≤ h1 / c := by gcongr
  have hd : IsE (a / b) (binary64.rnd (v / c)) := by
    have h' : (c : EReal) ≠ 0 := by exact_mod_cast hc.ne'
    change (div a b).value = _
    unfold div
    simp only [show a.value = some (v : EReal) from hv, show b.value = some (c : EReal) from hb, val_of hv, val_of hb, EReal.toReal_coe]
    simp [value_round, hc.ne']
  exact In.of_round (x := v / c) (M := M) hd (by rw [abs_le]; constructor <;> linarith) hO (by linarith) (by linarith)

theorem Spec.In.sqrt (ha : In a l1 h1) (p1 : 0 ≤ l1) {lo hi : ℝ} (M : ℝ) (hO : M ≤ om) (m : Real.sqrt h1 ≤ M)
    (e1 : lo + 1 / 10 ^ 15 * (M + 1) ≤ Real.sqrt l1) (e2 : Real.sqrt h1 + 1 / 10 ^ 15 * (M + 1) ≤ hi) : In (NumOps.sqrt a) lo hi := by
  obtain ⟨v, hv, a1, a2⟩ := ha
  have q1 := Real.sqrt_le_sqrt a1
  have q2 := Real.sqrt_le_sqrt a2
  have hs : IsE (NumOps.sqrt a) (binary64.rnd (Real.sqrt v)) := by
    have := (Fl.sqrt_value hv).2 (by exact_mod_cast p1.trans a1)
    rw [show sqrtE binary64 (v : EReal) = binary64.rnd (Real.sqrt v) by simp [sqrtE]] at this
    exact this
  exact In.of_round (x := Real.sqrt v) (M := M) hs (by rw [abs_of_nonneg (Real.sqrt_nonneg v)]; linarith) hO (by linarith) (by linarith)

theorem Spec.In.ln (ha : In a l1 h1) (p1 : 0 < l1) {lo hi : ℝ} (M : ℝ) (hO : M ≤ om) (m1 : -M ≤ Real.log l1) (m2 : Real.log h1 ≤ M)
    (e1 : lo + 1 / 10 ^ 15 * (M + 1) ≤ Real.log l1) (e2 : Real.log h1 + 1 / 10 ^ 15 * (M + 1) ≤ hi) : In (NumOps.ln a) lo hi := by
  obtain ⟨v, hv, a1, a2⟩ := ha
  have hv0 : 0 < v := by linarith
  have q1 := Real.log_le_log p1 a1
  have q2 := Real.log_le_log hv0 a2
  have hs : IsE (NumOps.ln a) (binary64.rnd (Real.log v)) := by
    change (Fl.ln a).value = _
    unfold Fl.ln
    have n1 : ¬ ((v : EReal) < 0) := not_lt.2 (by exact_mod_cast hv0.le)
    simp only [show a.value = some (v : EReal) from hv, val_of hv, EReal.toReal_coe, n1]
    simp [hv0.ne']
    rfl
  exact In.of_round (x := Real.log v) (M := M) hs (by rw [abs_le]; constructor <;> linarith) hO (by linarith) (by linarith)

/-- Numbers of the source code. -/
theorem is_ofR {c : ℝ} (h : Binary64 c) : Is (ofR c : Fl binary64) c := by
  have : (ofR c : Fl binary64).value = some (binary64.rnd c) := value_round _ _
  exact this.trans (congrArg some (binary64_fixed h))

theorem in_ofR {c : ℝ} (h : Binary64 c) : In (ofR c : Fl binary64) c c := ⟨c, is_ofR h, le_rfl, le_rfl⟩

theorem binary64_nat {n : ℕ} (h : n < 2 ^ 53) : Binary64 (n : ℝ) :=
  ⟨n, 0, by rw [abs_of_nonneg (by positivity)]; exact_mod_cast h, by norm_num, by norm_num, by simp⟩

theorem round64_one_add {s : ℝ} (h0 : 0 ≤ s) (h1 : s ≤ 2 ^ (-53 : ℤ)) : round64 (s + 1) = 1 := by
  have hs2 : s * 2 ^ (52 : ℤ) ≤ 1 / 2 := by
    calc s * 2 ^ (52 : ℤ) ≤ 2 ^ (-53 : ℤ) * 2 ^ (52 : ℤ) := by gcongr
      _ = 1 / 2 := by norm_num
  have he : expo (s + 1) = 0 := expo_eq (by norm_num) (by rw [zpow_zero]; linarith) (by
    rw [zero_add, zpow_one]
    have : (2 : ℝ) ^ (-53 : ℤ) < 1 := by norm_num
    linarith)
  have hr : roundEven ((s + 1) * 2 ^ (52 : ℤ)) = 2 ^ 52 := by
    have e1 : (s + 1) * 2 ^ (52 : ℤ) = s * 2 ^ (52 : ℤ) + ((2 ^ 52 : ℤ) : ℝ) := by
      rw [add_mul, one_mul, Int.cast_pow, Int.cast_ofNat]; norm_cast
    have hn : 0 ≤ s * 2 ^ (52 : ℤ) := by positivity
    have hfl : ⌊(s + 1) * (2 : ℝ) ^ (52 : ℤ)⌋ = 2 ^ 52 := by
      rw [e1, Int.floor_add_intCast, Int.floor_eq_zero_iff.2 ⟨hn, by linarith⟩, zero_add]
    have hfr : Int.fract ((s + 1) * (2 : ℝ) ^ (52 : ℤ)) = s * 2 ^ (52 : ℤ) := by
      rw [e1, Int.fract_add_intCast, Int.fract_eq_self.2 ⟨hn, by linarith⟩]
    unfold roundEven
    rw [hfl, hfr]
    split_ifs with c1 c2 c3
    · rfl
    · linarith
    · rfl
    · exact absurd (by decide) c3
  refine round64_of (y := 1) ?_ (by rw [abs_one]; exact one_lt_overflow)
  unfold round53 roundPos
  rw [if_neg (by linarith), he, sub_zero, hr, Int.cast_pow, Int.cast_ofNat, zero_sub]
  norm_num

namespace Spec.Tiny
variable {x : Fl binary64} {s : ℝ} (h : Tiny x s)
include h

theorem pos : 0 < s := lt_of_lt_of_le (by positivity) h.lo
theorem le : s ≤ 1 / 10 ^ 15 := h.hi.trans (by norm_num)
theorem ge_inv : (10 : ℝ) ^ 15 ≤ s⁻¹ := by
  rw [le_inv_comm₀ (by norm_num) h.pos]
  have := h.le
  rwa [one_div] at this
theorem inv_om : (s⁻¹) ^ 3 * 10 ^ 9 ≤ om := by
  have h1 : s⁻¹ ≤ 2 ^ 200 := by
    rw [inv_le_comm₀ h.pos (by positivity)]
    have := h.lo
    rwa [zpow_neg] at this
  have hp := inv_pos.2 h.pos
  calc (s⁻¹) ^ 3 * 10 ^ 9 ≤ (2 ^ 200) ^ 3 * 2 ^ 200 := by
        refine mul_le_mul (pow_le_pow_left₀ hp.le h1 3) ?_ (by positivity) (by positivity)
        exact le_trans (by norm_num : (10 : ℝ) ^ 9 ≤ 2 ^ 30) (pow_le_pow_right₀ (by norm_num) (by norm_num))
    _ = 2 ^ 800 := by rw [← pow_mul, ← pow_add]
    _ ≤ om := by unfold om; exact pow_le_pow_right₀ (by norm_num) (by norm_num)

theorem one : Is (x + ofR 1) 1 := by
  have hi : Is (ofR 1 : Fl binary64) 1 := is_ofR (by simpa using binary64_nat (n := 1) (by norm_num))
  have := value_add h.is hi
  rw [show binary64.rnd (s + 1) = 1 from round64_one_add h.pos.le h.hi] at this
  exact this

theorem ln_one : Is (NumOps.ln (x + ofR 1)) 0 := by
  have h1 := h.one
  generalize x + ofR 1 = a at h1
  change (Fl.ln a).value = _
  unfold Fl.ln
  have n1 : ¬ ((1 : EReal) < 0) := not_lt.2 zero_le_one
  simp only [show a.value = some ((1 : ℝ) : EReal) from h1, val_of h1, EReal.toReal_coe]
  have e : binary64.ln 1 = 0 := by change round64 (Real.log 1) = 0; rw [Real.log_one]; exact round64_zero
  simp [n1, e, one_ne_top]

theorem log_bound : -140 ≤ Real.log s ∧ Real.log s ≤ 0 := by
  constructor
  · have h1 := Real.log_le_log (by positivity) h.lo
    rw [Real.log_zpow] at h1
    have h2 := Real.log_two_lt_d9
    push_cast at h1
    linarith
  · exact Real.log_nonpos h.pos.le (h.le.trans (by norm_num))

theorem ln_in : In (NumOps.ln x) (-141) 141 := by
  have hx : In x s s := ⟨s, h.is, le_rfl, le_rfl⟩
  obtain ⟨l1, l2⟩ := h.log_bound
  have hO := h.inv_om
  have hW := h.ge_inv
  have h3 : (10 ^ 15) ^ 3 ≤ (s⁻¹) ^ 3 := pow_le_pow_left₀ (by norm_num) hW 3
  exact hx.ln h.pos 140 (by norm_num at h3 hO ⊢; linarith) (by linarith) (by linarith) (by norm_num; linarith) (by norm_num; linarith)

end Spec.Tiny

theorem nat_in (n : ℕ) (h : n < 2 ^ 53) : In (ofR (n : ℝ) : Fl binary64) n n := in_ofR (binary64_nat h)

/-- A product with zero. -/
theorem mul_zero_is {a b : Fl binary64} {l u : ℝ} (ha : In a l u) (hb : Is b 0) : Is (a * b) 0 := by
  obtain ⟨v, hv, _, _⟩ := ha
  have := value_mul hv hb
  rw [mul_zero, binary64.zero] at this
  exact this

theorem ghost_in {x : Fl binary64} {s : ℝ} (h : Tiny x s) : In (ghost.g x) (0.08 * s⁻¹) (0.09 * s⁻¹) := by
  have hs0 := h.pos
  have hs1 := h.le
  have hW := h.ge_inv
  have hO := h.inv_om
  have hx : In x s s := ⟨s, h.is, le_rfl, le_rfl⟩
  have c2 := nat_in 2 (by norm_num)
  have c12 : Is (ofR 12 : Fl binary64) 12 := is_ofR (by exact_mod_cast binary64_nat (n := 12) (by norm_num))
  have hone : In (x + ofR 1) 1 1 := ⟨1, h.one, le_rfl, le_rfl⟩
  have hlo := h.ln_one
  have hl := h.ln_in
  push_cast at c2
  -- the reciprocal
  have hWs : 1 / s = s⁻¹ := one_div s
  have i1 : IsE (x⁻¹) (binary64.rnd (1 / s)) := value_div_one h.is hs0.ne'
  rw [hWs] at i1
  set W := s⁻¹ with hWdef
  have hW0 : 0 < W := inv_pos.2 hs0
  have hsW : s * W = 1 := mul_inv_cancel₀ hs0.ne'
  have hW2 : W * 10 ^ 15 ≤ W ^ 2 := by nlinarith
  have hW3 : W ^ 2 * 10 ^ 15 ≤ W ^ 3 := by nlinarith
  clear_value W
  have si : In (x⁻¹) (0.999 * W) (1.001 * W) := by
    refine In.of_round (M := W) i1 (by rw [abs_of_pos hW0]) ?_ ?_ ?_ <;> linarith
  have si2 : In (x⁻¹ * x⁻¹) (0.99 * W ^ 2) (1.01 * W ^ 2) := by
    refine si.mul si (by linarith) (by linarith) (2 * W ^ 2) ?_ ?_ ?_ ?_ <;> nlinarith
  have d1 : In (x⁻¹ * ofR 2) (1.9 * W) (2.1 * W) := by
    refine si.mul c2 (by linarith) (by norm_num) (3 * W) ?_ ?_ ?_ ?_ <;> linarith
  have d2 : In (x⁻¹ * ofR 2 - x⁻¹ * x⁻¹) (-2 * W ^ 2) (2 * W ^ 2) := by
    refine d1.sub si2 (2 * W ^ 2) ?_ ?_ ?_ ?_ ?_ <;> linarith
  have o2 : In ((x + ofR 1) * (x + ofR 1)) (-2) 2 := by
    refine (hone.mul hone (by norm_num) (by norm_num) 1 ?_ ?_ ?_ ?_ : In _ (-2) 2) <;> linarith
  have m1 : In ((x + ofR 1) * (x + ofR 1) * (x⁻¹ * ofR 2 - x⁻¹ * x⁻¹)) (-(5 * W ^ 2)) (5 * W ^ 2) := by
    refine o2.mulAbs (A := 2) (B := 2 * W ^ 2) (d2.weaken (by linarith) (by linarith)) (4 * W ^ 2) ?_ ?_ ?_ <;> linarith
  have m2 := mul_zero_is m1 hlo
  have n1 : In (x * ofR 2) (-(1 / 10 ^ 10)) (1 / 10 ^ 10) := by
    refine (hx.mul c2 hs0.le (by norm_num) 1 ?_ ?_ ?_ ?_ : In _ _ _) <;> linarith
  have n2 : In (x * ofR 2 * NumOps.ln x) (-(1 / 10)) (1 / 10) := by
    refine n1.mulAbs hl 1 ?_ ?_ ?_ <;> linarith
  have lg : In (ghost.l_g x (NumOps.ln x) (NumOps.ln (x + ofR 1))) (-1) 1 := by
    have z : In ((x + ofR 1) * (x + ofR 1) * (x⁻¹ * ofR 2 - x⁻¹ * x⁻¹) * NumOps.ln (x + ofR 1)) 0 0 := ⟨0, m2, le_rfl, le_rfl⟩
    refine (z.sub n2 1 ?_ ?_ ?_ ?_ ?_ : In _ (-1) 1) <;> linarith
  have rg : In (ghost.r_g x) (0.99 * W) (1.01 * W) := by
    refine (si.add c2 (2 * W) ?_ ?_ ?_ ?_ ?_ : In _ _ _) <;> linarith
  have sm : In (ghost.l_g x (NumOps.ln x) (NumOps.ln (x + ofR 1)) + ghost.r_g x) (0.98 * W) (1.02 * W) := by
    refine lg.add rg (2 * W) ?_ ?_ ?_ ?_ ?_ <;> linarith
  have : In (ghost.g x) (0.08 * W) (0.09 * W) := by
    refine (sm.divNum c12 (by norm_num) W ?_ ?_ ?_ ?_ ?_ : In _ _ _) <;> linarith
  exact this

/-- What the following lemmas use of a tiny momentum and its reciprocal `W`. -/
structure TinyFacts (x : Fl binary64) (s W : ℝ) : Prop where
  s0 : 0 < s
  s1 : s ≤ 1 / 10 ^ 15
  W0 : 0 < W
  W1 : (10 : ℝ) ^ 15 ≤ W
  W2 : W * 10 ^ 15 ≤ W ^ 2
  W3 : W ^ 2 * 10 ^ 15 ≤ W ^ 3
  O : W ^ 3 * 10 ^ 9 ≤ om
  lw : Real.log W ≤ 140
  xs : In x s s
  one : In (x + ofR 1) 1 1
  lo : Is (NumOps.ln (x + ofR 1)) 0
  l : In (NumOps.ln x) (-141) 141
  i : In (x⁻¹) (0.999 * W) (1.001 * W)
  i2 : In (x⁻¹ * x⁻¹) (0.99 * W ^ 2) (1.01 * W ^ 2)
  sq : In (x * x) (-1) 1
  oo : In ((x + ofR 1) * (x + ofR 1)) 0.99 1.01

theorem Spec.Tiny.small {x : Fl binary64} {s : ℝ} (h : Tiny x s) : TinyFacts x s s⁻¹ := by
  have hs0 := h.pos
  have hs1 := h.le
  have hW := h.ge_inv
  have hO := h.inv_om
  have hx : In x s s := ⟨s, h.is, le_rfl, le_rfl⟩
  have hone : In (x + ofR 1) 1 1 := ⟨1, h.one, le_rfl, le_rfl⟩
  have hlo := h.ln_one
  have hl := h.ln_in
  have hWs : 1 / s = s⁻¹ := one_div s
  have i1 : IsE (x⁻¹) (binary64.rnd (1 / s)) := value_div_one h.is hs0.ne'
  rw [hWs] at i1
  have hlogW : Real.log (s⁻¹) ≤ 140 := by rw [Real.log_inv]; linarith [h.log_bound.1]
  set W := s⁻¹ with hWdef
  have hW0 : 0 < W := inv_pos.2 hs0
  have hsW : s * W = 1 := mul_inv_cancel₀ hs0.ne'
  have hW2 : W * 10 ^ 15 ≤ W ^ 2 := by nlinarith
  have hW3 : W ^ 2 * 10 ^ 15 ≤ W ^ 3 := by nlinarith
  clear_value W
  have si : In (x⁻¹) (0.999 * W) (1.001 * W) := by
    refine In.of_round (M := W) i1 (by rw [abs_of_pos hW0]) ?_ ?_ ?_ <;> linarith
  have si2 : In (x⁻¹ * x⁻¹) (0.99 * W ^ 2) (1.01 * W ^ 2) := by
    refine si.mul si (by linarith) (by linarith) (2 * W ^ 2) ?_ ?_ ?_ ?_ <;> nlinarith
  have s2 : In (x * x) (-1) 1 := by
    refine (hx.mul hx hs0.le hs0.le 1 ?_ ?_ ?_ ?_ : In _ (-1) 1) <;> nlinarith
  have o2 : In ((x + ofR 1) * (x + ofR 1)) 0.99 1.01 := by
    refine (hone.mul hone (by norm_num) (by norm_num) 1 ?_ ?_ ?_ ?_ : In _ _ _) <;> linarith
  exact ⟨hs0, hs1, hW0, hW, hW2, hW3, hO, hlogW, hx, hone, hlo, hl, si, si2, s2, o2⟩

theorem gluon_root {x : Fl binary64} {s W : ℝ} (h : TinyFacts x s W) : In (NumOps.sqrt (x⁻¹ * ofR 4 + ofR 1)) (1.8 * Real.sqrt W) (2.2 * Real.sqrt W) := by
  obtain ⟨hs0, hs1, hW0, hW, hW2, hW3, hO, hlogW, hx, hone, hlo, hl, si, si2, s2, o2⟩ := h
  have c1 := nat_in 1 (by norm_num)
  have c4 := nat_in 4 (by norm_num)
  push_cast at c1 c4
  set R := Real.sqrt W with hR
  have hR0 : 0 ≤ R := Real.sqrt_nonneg W
  have hRR : R * R = W := Real.mul_self_sqrt hW0.le
  have hR7 : 10 ^ 7 ≤ R := by
    apply Real.le_sqrt_of_sq_le
    norm_num at hW ⊢; linarith
  clear_value R
  have hRW : R * 10 ^ 7 ≤ W := by nlinarith
  have a1 : In (x⁻¹ * ofR 4) (3.9 * W) (4.1 * W) := by
    refine si.mul c4 (by linarith) (by norm_num) (5 * W) ?_ ?_ ?_ ?_ <;> linarith
  have a2 : In (x⁻¹ * ofR 4 + ofR 1) (3.61 * W) (4.41 * W) := by
    refine a1.add c1 (5 * W) ?_ ?_ ?_ ?_ ?_ <;> linarith
  have q1 : Real.sqrt (3.61 * W) = 1.9 * R := by
    rw [show (3.61 : ℝ) * W = (1.9 * R) ^ 2 by rw [← hRR]; ring, Real.sqrt_sq (by positivity)]
  have q2 : Real.sqrt (4.41 * W) = 2.1 * R := by
    rw [show (4.41 : ℝ) * W = (2.1 * R) ^ 2 by rw [← hRR]; ring, Real.sqrt_sq (by positivity)]
  have a3 : In (NumOps.sqrt (x⁻¹ * ofR 4 + ofR 1)) (1.8 * R) (2.2 * R) := by
    refine a2.sqrt (by positivity) (3 * R) ?_ ?_ ?_ ?_ <;> (try rw [q1]) <;> (try rw [q2]) <;> linarith
  exact a3

theorem gluon_la1 {x : Fl binary64} {s W : ℝ} (h : TinyFacts x s W) : In ((x * x * ofR 3 - x * ofR 34 - ofR 28 - x⁻¹ * ofR 24) * NumOps.sqrt (x⁻¹ * ofR 4 + ofR 1)) (-(60 * (W * Real.sqrt W))) (60 * (W * Real.sqrt W)) := by
  obtain ⟨hs0, hs1, hW0, hW, hW2, hW3, hO, hlogW, hx, hone, hlo, hl, si, si2, s2, o2⟩ := h
  have c3 := nat_in 3 (by norm_num)
  have c24 := nat_in 24 (by norm_num)
  have c28 := nat_in 28 (by norm_num)
  have c34 := nat_in 34 (by norm_num)
  push_cast at c3 c24 c28 c34
  have a3 := gluon_root ⟨hs0, hs1, hW0, hW, hW2, hW3, hO, hlogW, hx, hone, hlo, hl, si, si2, s2, o2⟩
  generalize NumOps.sqrt (x⁻¹ * ofR 4 + ofR 1) = A at a3 ⊢
  set R := Real.sqrt W with hR
  have hR0 : 0 ≤ R := Real.sqrt_nonneg W
  have hRR : R * R = W := Real.mul_self_sqrt hW0.le
  have hR7 : 10 ^ 7 ≤ R := by
    apply Real.le_sqrt_of_sq_le
    norm_num at hW ⊢; linarith
  clear_value R
  have hRW : R * 10 ^ 7 ≤ W := by nlinarith
  have b1 : In (x * x * ofR 3) (-4) 4 := by
    refine s2.mulAbs (B := 3) (c3.weaken (by norm_num) le_rfl) 3 ?_ ?_ ?_ <;> linarith
  have b2 : In (x * ofR 34) (-1) 1 := by
    refine (hx.mul c34 hs0.le (by norm_num) 1 ?_ ?_ ?_ ?_ : In _ (-1) 1) <;> linarith
  have b3 : In (x * x * ofR 3 - x * ofR 34) (-6) 6 := by
    refine b1.sub b2 6 ?_ ?_ ?_ ?_ ?_ <;> linarith
  have b4 : In (x * x * ofR 3 - x * ofR 34 - ofR 28) (-40) 40 := by
    refine b3.sub c28 40 ?_ ?_ ?_ ?_ ?_ <;> linarith
  have b5 : In (x⁻¹ * ofR 24) (23 * W) (25 * W) := by
    refine si.mul c24 (by linarith) (by norm_num) (25 * W) ?_ ?_ ?_ ?_ <;> linarith
  have b6 : In (x * x * ofR 3 - x * ofR 34 - ofR 28 - x⁻¹ * ofR 24) (-(26 * W)) (26 * W) := by
    refine b4.sub b5 (26 * W) ?_ ?_ ?_ ?_ ?_ <;> linarith
  have b7 : In ((x * x * ofR 3 - x * ofR 34 - ofR 28 - x⁻¹ * ofR 24) * A) (-(60 * (W * R))) (60 * (W * R)) := by
    have hWR : W ≤ W * R := by nlinarith
    have hWRo : W * R ≤ W ^ 2 := by nlinarith
    refine b6.mulAbs (B := 2.2 * R) (a3.weaken (by linarith) le_rfl) (59 * (W * R)) ?_ ?_ ?_ <;> nlinarith
  exact b7

theorem gluon_la2 {x : Fl binary64} {s W : ℝ} (h : TinyFacts x s W) : In (NumOps.ln ((NumOps.sqrt (x⁻¹ * ofR 4 + ofR 1) - ofR 1) / ofR 2) * ofR 2 + NumOps.ln x) (-450) 450 := by
  obtain ⟨hs0, hs1, hW0, hW, hW2, hW3, hO, hlogW, hx, hone, hlo, hl, si, si2, s2, o2⟩ := h
  have c1 := nat_in 1 (by norm_num)
  have c2 := nat_in 2 (by norm_num)
  push_cast at c1 c2
  have i2 : Is (ofR 2 : Fl binary64) 2 := is_ofR (by exact_mod_cast binary64_nat (n := 2) (by norm_num))
  have a3 := gluon_root ⟨hs0, hs1, hW0, hW, hW2, hW3, hO, hlogW, hx, hone, hlo, hl, si, si2, s2, o2⟩
  generalize NumOps.sqrt (x⁻¹ * ofR 4 + ofR 1) = A at a3 ⊢
  set R := Real.sqrt W with hR
  have hR0 : 0 ≤ R := Real.sqrt_nonneg W
  have hRR : R * R = W := Real.mul_self_sqrt hW0.le
  have hR7 : 10 ^ 7 ≤ R := by
    apply Real.le_sqrt_of_sq_le
    norm_num at hW ⊢; linarith
  clear_value R
  have hRW : R * 10 ^ 7 ≤ W := by nlinarith
  have b8 : In (A - ofR 1) (1.7 * R) (2.3 * R) := by
    refine a3.sub c1 (3 * R) ?_ ?_ ?_ ?_ ?_ <;> linarith
  have b9 : In ((A - ofR 1) / ofR 2) (0.8 * R) (1.2 * R) := by
    refine b8.divNum i2 (by norm_num) (3 * R) ?_ ?_ ?_ ?_ ?_ <;> linarith
  have b10 : In (NumOps.ln ((A - ofR 1) / ofR 2)) (-141) 141 := by
    have l1 : 0 ≤ Real.log (0.8 * R) := Real.log_nonneg (by linarith)
    have l2 : Real.log (1.2 * R) ≤ 140 := (Real.log_le_log (by linarith) (by linarith)).trans hlogW
    have hOm : 140 ≤ om := by norm_num at *; linarith
    refine b9.ln (by linarith) 140 hOm (by linarith) l2 ?_ ?_ <;> norm_num at l1 l2 ⊢ <;> linarith
  have b11 : In (NumOps.ln ((A - ofR 1) / ofR 2) * ofR 2) (-300) 300 := by
    refine b10.mulAbs (B := 2) (c2.weaken (by norm_num) le_rfl) 300 ?_ ?_ ?_ <;> linarith
  have b12 : In (NumOps.ln ((A - ofR 1) / ofR 2) * ofR 2 + NumOps.ln x) (-450) 450 := by
    refine b11.add hl 450 ?_ ?_ ?_ ?_ ?_ <;> linarith
  exact b12

theorem gluon_la {x : Fl binary64} {s W : ℝ} (h : TinyFacts x s W) : In (gluon.l_a x (NumOps.ln x)) (-(0.01 * W ^ 2)) (0.01 * W ^ 2) := by
  obtain ⟨hs0, hs1, hW0, hW, hW2, hW3, hO, hlogW, hx, hone, hlo, hl, si, si2, s2, o2⟩ := h
  have b7 := gluon_la1 ⟨hs0, hs1, hW0, hW, hW2, hW3, hO, hlogW, hx, hone, hlo, hl, si, si2, s2, o2⟩
  have b12 := gluon_la2 ⟨hs0, hs1, hW0, hW, hW2, hW3, hO, hlogW, hx, hone, hlo, hl, si, si2, s2, o2⟩
  set R := Real.sqrt W with hR
  have hR0 : 0 ≤ R := Real.sqrt_nonneg W
  have hRR : R * R = W := Real.mul_self_sqrt hW0.le
  have hR7 : 10 ^ 7 ≤ R := by
    apply Real.le_sqrt_of_sq_le
    norm_num at hW ⊢; linarith
  clear_value R
  have hRW : R * 10 ^ 7 ≤ W := by nlinarith
  have la : In (gluon.l_a x (NumOps.ln x)) (-(0.01 * W ^ 2)) (0.01 * W ^ 2) := by
    have hWRo : W * R * 10 ^ 7 ≤ W ^ 2 := by nlinarith
    have hWR0 : 0 ≤ W * R := by positivity
    refine (b7.mulAbs b12 (27000 * (W * R)) ?_ ?_ ?_ : In _ _ _) <;> linarith
  exact la

theorem gluon_lb {x : Fl binary64} {s W : ℝ} (h : TinyFacts x s W) : In (gluon.l_b x (NumOps.ln (x + ofR 1))) 0 0 := by
  obtain ⟨hs0, hs1, hW0, hW, hW2, hW3, hO, hlogW, hx, hone, hlo, hl, si, si2, s2, o2⟩ := h
  have c2 := nat_in 2 (by norm_num)
  have c3 := nat_in 3 (by norm_num)
  have c11 := nat_in 11 (by norm_num)
  have c20 := nat_in 20 (by norm_num)
  push_cast at c2 c3 c11 c20
  have si3 : In (x⁻¹ * (x⁻¹ * x⁻¹)) (0.9 * W ^ 3) (1.1 * W ^ 3) := by
    have w3 : W * W ^ 2 = W ^ 3 := by ring
    refine si.mul si2 (by linarith) (by positivity) (2 * W ^ 3) ?_ ?_ ?_ ?_ <;> nlinarith
  have n20 : In (-x⁻¹ * ofR 20) (-(21 * W)) (21 * W) := by
    refine (si.neg.weaken (lo' := -(1.001 * W)) le_rfl (hi' := 1.001 * W) (by linarith)).mulAbs (B := 20)
      (c20.weaken (by norm_num) le_rfl) (21 * W) ?_ ?_ ?_ <;> linarith
  have e1 : In (-x⁻¹ * ofR 20 + ofR 3) (-(22 * W)) (22 * W) := by
    refine n20.add c3 (22 * W) ?_ ?_ ?_ ?_ ?_ <;> linarith
  have e2 : In (x⁻¹ * x⁻¹ * ofR 11) (10 * W ^ 2) (12 * W ^ 2) := by
    refine si2.mul c11 (by positivity) (by norm_num) (12 * W ^ 2) ?_ ?_ ?_ ?_ <;> linarith
  have e3 : In (-x⁻¹ * ofR 20 + ofR 3 + x⁻¹ * x⁻¹ * ofR 11) (-(13 * W ^ 2)) (13 * W ^ 2) := by
    refine e1.add e2 (13 * W ^ 2) ?_ ?_ ?_ ?_ ?_ <;> linarith
  have e4 : In (x⁻¹ * (x⁻¹ * x⁻¹) * ofR 2) (1 * W ^ 3) (3 * W ^ 3) := by
    refine si3.mul c2 (by positivity) (by norm_num) (3 * W ^ 3) ?_ ?_ ?_ ?_ <;> linarith
  have e5 : In (-x⁻¹ * ofR 20 + ofR 3 + x⁻¹ * x⁻¹ * ofR 11 - x⁻¹ * (x⁻¹ * x⁻¹) * ofR 2) (-(4 * W ^ 3)) (4 * W ^ 3) := by
    refine e3.sub e4 (4 * W ^ 3) ?_ ?_ ?_ ?_ ?_ <;> linarith
  have e6 := (o2.weaken (lo' := -1.01) (by norm_num) le_rfl).mulAbs e5 (C := 5 * W ^ 3) (5 * W ^ 3) (by linarith)
    (by linarith) (by linarith)
  have e7 := e6.mulAbs (b := ofR 2) (B := 2) (c2.weaken (by norm_num) le_rfl) (C := 11 * W ^ 3) (11 * W ^ 3) (by linarith)
    (by linarith) (by linarith)
  have lb : In (gluon.l_b x (NumOps.ln (x + ofR 1))) 0 0 := ⟨0, mul_zero_is e7 hlo, le_rfl, le_rfl⟩
  exact lb

theorem gluon_lc {x : Fl binary64} {s W : ℝ} (h : TinyFacts x s W) : In (gluon.l_c x (NumOps.ln x)) (-1000) 1000 := by
  obtain ⟨hs0, hs1, hW0, hW, hW2, hW3, hO, hlogW, hx, hone, hlo, hl, si, si2, s2, o2⟩ := h
  have c2 := nat_in 2 (by norm_num)
  have c3 := nat_in 3 (by norm_num)
  push_cast at c2 c3
  have f1 : In (-(x * x) * ofR 3) (-4) 4 := by
    refine (s2.neg.weaken (lo' := -1) (by norm_num) (hi' := 1) (by norm_num)).mulAbs (B := 3) (c3.weaken (by norm_num) le_rfl) 3 ?_ ?_ ?_ <;> linarith
  have f2 : In (-(x * x) * ofR 3 + ofR 2) (-7) 7 := by
    refine f1.add c2 7 ?_ ?_ ?_ ?_ ?_ <;> linarith
  have lc : In (gluon.l_c x (NumOps.ln x)) (-1000) 1000 := by
    refine (f2.mulAbs hl 1000 ?_ ?_ ?_ : In _ _ _) <;> linarith
  exact lc

theorem gluon_ra {x : Fl binary64} {s W : ℝ} (h : TinyFacts x s W) : In (gluon.r_a x) (-(100 * W)) (100 * W) := by
  obtain ⟨hs0, hs1, hW0, hW, hW2, hW3, hO, hlogW, hx, hone, hlo, hl, si, si2, s2, o2⟩ := h
  have c4 := nat_in 4 (by norm_num)
  have c12 := nat_in 12 (by norm_num)
  have c20 := nat_in 20 (by norm_num)
  push_cast at c4 c12 c20
  have g1 : In (x + ofR 4) (-5) 5 := by
    refine (hx.add c4 5 ?_ ?_ ?_ ?_ ?_ : In _ (-5) 5) <;> linarith
  have g2 : In (x - ofR 20) (-22) 22 := by
    refine (hx.sub c20 22 ?_ ?_ ?_ ?_ ?_ : In _ (-22) 22) <;> linarith
  have g3 : In (x⁻¹ * ofR 12) (11 * W) (13 * W) := by
    refine si.mul c12 (by linarith) (by norm_num) (13 * W) ?_ ?_ ?_ ?_ <;> linarith
  have g4 : In (x - ofR 20 + x⁻¹ * ofR 12) (-(14 * W)) (14 * W) := by
    refine g2.add g3 (14 * W) ?_ ?_ ?_ ?_ ?_ <;> linarith
  have ra : In (gluon.r_a x) (-(100 * W)) (100 * W) := by
    refine ((g1.neg.weaken (lo' := -5) (by norm_num) (hi' := 5) (by norm_num)).mulAbs g4 (100 * W) ?_ ?_ ?_ : In _ _ _) <;> linarith
  exact ra

theorem gluon_rb {x : Fl binary64} {s W : ℝ} (h : TinyFacts x s W) : In (gluon.r_b x) (1.8 * W ^ 2) (2.2 * W ^ 2) := by
  obtain ⟨hs0, hs1, hW0, hW, hW2, hW3, hO, hlogW, hx, hone, hlo, hl, si, si2, s2, o2⟩ := h
  have c1 := nat_in 1 (by norm_num)
  have c2 := nat_in 2 (by norm_num)
  have c10 := nat_in 10 (by norm_num)
  push_cast at c1 c2 c10
  have h1 : In ((x + ofR 1) * (x + ofR 1) * ofR 2) 1.9 2.1 := by
    refine o2.mul c2 (by norm_num) (by norm_num) 3 ?_ ?_ ?_ ?_ <;> linarith
  have h2 : In (-x⁻¹ * ofR 10) (-(11 * W)) (11 * W) := by
    refine (si.neg.weaken (lo' := -(1.001 * W)) le_rfl (hi' := 1.001 * W) (by linarith)).mulAbs (B := 10)
      (c10.weaken (by norm_num) le_rfl) (11 * W) ?_ ?_ ?_ <;> linarith
  have h3 : In (-x⁻¹ * ofR 10 + ofR 1) (-(12 * W)) (12 * W) := by
    refine h2.add c1 (12 * W) ?_ ?_ ?_ ?_ ?_ <;> linarith
  have h4 : In (-x⁻¹ * ofR 10 + ofR 1 + x⁻¹ * x⁻¹) (0.98 * W ^ 2) (1.02 * W ^ 2) := by
    refine h3.add si2 (2 * W ^ 2) ?_ ?_ ?_ ?_ ?_ <;> linarith
  have rb : In (gluon.r_b x) (1.8 * W ^ 2) (2.2 * W ^ 2) := by
    refine (h1.mul h4 (by norm_num) (by positivity) (3 * W ^ 2) ?_ ?_ ?_ ?_ : In _ _ _) <;> linarith
  exact rb

theorem gluon_rc {x : Fl binary64} {s W : ℝ} (h : TinyFacts x s W) : In (gluon.r_c x) (1.88 * W ^ 2) (2.12 * W ^ 2) := by
  obtain ⟨hs0, hs1, hW0, hW, hW2, hW3, hO, hlogW, hx, hone, hlo, hl, si, si2, s2, o2⟩ := h
  have c2 := nat_in 2 (by norm_num)
  push_cast at c2
  have k1 : In (x⁻¹ * x⁻¹ * ofR 2) (1.9 * W ^ 2) (2.1 * W ^ 2) := by
    refine si2.mul c2 (by positivity) (by norm_num) (3 * W ^ 2) ?_ ?_ ?_ ?_ <;> linarith
  have k2 : In (x⁻¹ * x⁻¹ * ofR 2 + ofR 2) (1.89 * W ^ 2) (2.11 * W ^ 2) := by
    refine k1.add c2 (3 * W ^ 2) ?_ ?_ ?_ ?_ ?_ <;> linarith
  have rc : In (gluon.r_c x) (1.88 * W ^ 2) (2.12 * W ^ 2) := by
    refine (k2.sub s2 (3 * W ^ 2) ?_ ?_ ?_ ?_ ?_ : In _ _ _) <;> linarith
  exact rc

theorem gluon_sum {x : Fl binary64} {s W : ℝ} (h : TinyFacts x s W) : In (gluon.f x) (0.05 * W ^ 2) (0.065 * W ^ 2) := by
  obtain ⟨hs0, hs1, hW0, hW, hW2, hW3, hO, hlogW, hx, hone, hlo, hl, si, si2, s2, o2⟩ := h
  have c5 := nat_in 5 (by norm_num)
  push_cast at c5
  have i8 : Is (ofR 8 : Fl binary64) 8 := is_ofR (by exact_mod_cast binary64_nat (n := 8) (by norm_num))
  have i72 : Is (ofR 72 : Fl binary64) 72 := is_ofR (by exact_mod_cast binary64_nat (n := 72) (by norm_num))
  have la := gluon_la ⟨hs0, hs1, hW0, hW, hW2, hW3, hO, hlogW, hx, hone, hlo, hl, si, si2, s2, o2⟩
  have lb := gluon_lb ⟨hs0, hs1, hW0, hW, hW2, hW3, hO, hlogW, hx, hone, hlo, hl, si, si2, s2, o2⟩
  have lc := gluon_lc ⟨hs0, hs1, hW0, hW, hW2, hW3, hO, hlogW, hx, hone, hlo, hl, si, si2, s2, o2⟩
  have ra := gluon_ra ⟨hs0, hs1, hW0, hW, hW2, hW3, hO, hlogW, hx, hone, hlo, hl, si, si2, s2, o2⟩
  have rb := gluon_rb ⟨hs0, hs1, hW0, hW, hW2, hW3, hO, hlogW, hx, hone, hlo, hl, si, si2, s2, o2⟩
  have rc := gluon_rc ⟨hs0, hs1, hW0, hW, hW2, hW3, hO, hlogW, hx, hone, hlo, hl, si, si2, s2, o2⟩
  have t1 : In (gluon.l_a x (NumOps.ln x) + gluon.l_b x (NumOps.ln (x + ofR 1))) (-(0.02 * W ^ 2)) (0.02 * W ^ 2) := by
    refine la.add lb (W ^ 2) ?_ ?_ ?_ ?_ ?_ <;> linarith
  have t2 := t1.add lc (lo := -(0.03 * W ^ 2)) (hi := 0.03 * W ^ 2) (W ^ 2) (by linarith) (by linarith)
    (by linarith) (by linarith) (by linarith)
  have t3 := t2.add ra (lo := -(0.04 * W ^ 2)) (hi := 0.04 * W ^ 2) (W ^ 2) (by linarith) (by linarith)
    (by linarith) (by linarith) (by linarith)
  have t4 := t3.add rb (lo := 1.75 * W ^ 2) (hi := 2.25 * W ^ 2) (3 * W ^ 2) (by linarith) (by linarith)
    (by linarith) (by linarith) (by linarith)
  have t5 := t4.add rc (lo := 3.62 * W ^ 2) (hi := 4.38 * W ^ 2) (5 * W ^ 2) (by linarith) (by linarith)
    (by linarith) (by linarith) (by linarith)
  have t6 := t5.divNum i72 (by norm_num) (lo := 0.0501 * W ^ 2) (hi := 0.062 * W ^ 2) (W ^ 2) (by linarith)
    (by linarith) (by linarith) (by linarith) (by linarith)
  have u1 : In (x⁻¹ * ofR 5) (4 * W) (6 * W) := by
    refine si.mul c5 (by linarith) (by norm_num) (6 * W) ?_ ?_ ?_ ?_ <;> linarith
  have u2 : In (x⁻¹ * ofR 5 / ofR 8) 0 W := by
    refine u1.divNum i8 (by norm_num) W ?_ ?_ ?_ ?_ ?_ <;> linarith
  have tt : In (gluon.f x) (0.05 * W ^ 2) (0.065 * W ^ 2) := by
    refine (t6.add u2 (W ^ 2) ?_ ?_ ?_ ?_ ?_ : In _ _ _) <;> linarith
  exact tt

theorem gluon_in {x : Fl binary64} {s : ℝ} (h : Tiny x s) : In (gluon.f x) (0.05 * (s⁻¹) ^ 2) (0.065 * (s⁻¹) ^ 2) := gluon_sum h.small

/-! ### The remaining functions -/

theorem gluon_xi_sum {x : Fl binary64} {s W : ℝ} (h : TinyFacts x s W) : In (gluon.f_xi x) (-(0.175 * W ^ 2)) (-(0.16 * W ^ 2)) := by
  obtain ⟨hs0, hs1, hW0, hW, hW2, hW3, hO, hlogW, hx, hone, hlo, hl, si, si2, s2, o2⟩ := h
  have c2 := nat_in 2 (by norm_num)
  have c3 := nat_in 3 (by norm_num)
  push_cast at c2 c3
  have i4 : Is (ofR 4 : Fl binary64) 4 := is_ofR (by exact_mod_cast binary64_nat (n := 4) (by norm_num))
  have i12 : Is (ofR 12 : Fl binary64) 12 := is_ofR (by exact_mod_cast binary64_nat (n := 12) (by norm_num))
  have p1 : In (x⁻¹ / ofR 4) 0 W := by
    refine si.divNum i4 (by norm_num) W ?_ ?_ ?_ ?_ ?_ <;> linarith
  have n1 : In (x * ofR 2) (-(1 / 10 ^ 10)) (1 / 10 ^ 10) := by
    refine (hx.mul c2 hs0.le (by norm_num) 1 ?_ ?_ ?_ ?_ : In _ _ _) <;> linarith
  have n2 : In (x * ofR 2 * NumOps.ln x) (-(1 / 10)) (1 / 10) := by
    refine n1.mulAbs hl 1 ?_ ?_ ?_ <;> linarith
  have q1 : In (x⁻¹ * x⁻¹ - x⁻¹) (-(2 * W ^ 2)) (2 * W ^ 2) := by
    refine si2.sub si (2 * W ^ 2) ?_ ?_ ?_ ?_ ?_ <;> linarith
  have q2 : In (x⁻¹ - x * x) (-(2 * W)) (2 * W) := by
    refine si.sub s2 (2 * W) ?_ ?_ ?_ ?_ ?_ <;> linarith
  have q3 : In ((x⁻¹ * x⁻¹ - x⁻¹) * (x⁻¹ - x * x)) (-(5 * W ^ 3)) (5 * W ^ 3) := by
    have w3 : 2 * W ^ 2 * (2 * W) = 4 * W ^ 3 := by ring
    refine q1.mulAbs q2 (5 * W ^ 3) ?_ ?_ ?_ <;> (try rw [w3]) <;> linarith
  have q4 : In ((x⁻¹ * x⁻¹ - x⁻¹) * (x⁻¹ - x * x) * ofR 2) (-(11 * W ^ 3)) (11 * W ^ 3) := by
    refine q3.mulAbs (B := 2) (c2.weaken (by norm_num) le_rfl) (11 * W ^ 3) ?_ ?_ ?_ <;> linarith
  have q5 : In ((x⁻¹ * x⁻¹ - x⁻¹) * (x⁻¹ - x * x) * ofR 2 * NumOps.ln (x + ofR 1)) 0 0 := ⟨0, mul_zero_is q4 hlo, le_rfl, le_rfl⟩
  have t1 := n2.sub q5 (lo := -1) (hi := 1) 1 (by linarith) (by norm_num) (by norm_num) (by norm_num) (by norm_num)
  have t2 := t1.add c3 (lo := -5) (hi := 5) 5 (by linarith) (by norm_num) (by norm_num) (by norm_num) (by norm_num)
  have r1 : In (x⁻¹ * ofR 3) 0 (4 * W) := by
    refine si.mul c3 (by linarith) (by norm_num) (4 * W) ?_ ?_ ?_ ?_ <;> linarith
  have t3 := t2.sub r1 (lo := -(5 * W)) (hi := 5 * W) (5 * W) (by linarith) (by linarith) (by linarith)
    (by linarith) (by linarith)
  have r2 : In (x⁻¹ * x⁻¹ * ofR 2) (1.97 * W ^ 2) (2.03 * W ^ 2) := by
    refine si2.mul c2 (by positivity) (by norm_num) (3 * W ^ 2) ?_ ?_ ?_ ?_ <;> linarith
  have t4 := t3.add r2 (lo := 1.96 * W ^ 2) (hi := 2.04 * W ^ 2) (3 * W ^ 2) (by linarith) (by linarith)
    (by linarith) (by linarith) (by linarith)
  have t5 := t4.divNum i12 (by norm_num) (lo := 0.163 * W ^ 2) (hi := 0.171 * W ^ 2) (W ^ 2) (by linarith)
    (by linarith) (by linarith) (by linarith) (by linarith)
  have tt : In (gluon.f_xi x) (-(0.175 * W ^ 2)) (-(0.16 * W ^ 2)) := by
    refine (p1.sub t5 (W ^ 2) ?_ ?_ ?_ ?_ ?_ : In _ _ _) <;> linarith
  exact tt

end Qcd
