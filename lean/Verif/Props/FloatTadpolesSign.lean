import Verif.Props.FloatTadpoles
import Verif.Props.FloatZeroMass

/-!
# The second derivatives of the massless tadpoles at small momenta in floating-point arithmetic
-/

namespace Qcd
open Spec Fl FTD

namespace tadpoles

/-- The Bose distribution at a small negative energy. -/
theorem bose_neg_top {q beta : Fl binary64} {x b w : ℝ} (hq : Is q x) (hb : Is beta b) (h0 : 0 < b)
    (hw : round64 (-x * b) = (w : EReal)) (he : binary64.exp w = 1) : IsE (F.bose_distribution_zero_chempot (-q) beta) ⊤ := by
  have e : F.bose_distribution_zero_chempot (-q) beta = div (num 1) (add (exp (mul (-q) beta)) (neg (num 1))) := rfl
  have hq' : (-q).value = some ((-x : ℝ) : EReal) := by
    have h := value_neg hq
    rw [← EReal.coe_neg] at h
    exact h
  have m := value_mulE hq' hb h0
  have e1 : mulE binary64 ((-x : ℝ) : EReal) b = (w : EReal) := by simp only [mulE]; simp; rw [← neg_mul]; exact hw
  rw [e1] at m
  have e2 : expE binary64 (w : EReal) = 1 := by simp [expE, he]
  have e3 : subInv binary64 1 = ⊤ := by simp [subInv, one_ne_top, binary64.zero]
  rw [IsE, e, exp_eq m, e2, subInv_eq le_rfl, e3]

theorem top_mul_top {a b : Fl binary64} (ha : IsE a ⊤) (hb : IsE b ⊤) : IsE (a * b) ⊤ := by
  have n1 := isNeg_pos ha EReal.zero_lt_top
  have n2 := isNeg_pos hb EReal.zero_lt_top
  change (Fl.mul a b).value = _
  simp [Fl.mul, val_of ha, val_of hb, show a.value = _ from ha, show b.value = _ from hb, n1, n2]

theorem top_mul_bot {a b : Fl binary64} (ha : IsE a ⊤) (hb : IsE b ⊥) : IsE (a * b) ⊥ := by
  have n1 := isNeg_pos ha EReal.zero_lt_top
  have n2 := isNeg_neg hb EReal.bot_lt_zero
  change (Fl.mul a b).value = _
  simp [Fl.mul, val_of ha, val_of hb, show a.value = _ from ha, show b.value = _ from hb, n1, n2]

theorem top_div {a b : Fl binary64} {k : ℕ} (ha : IsE a ⊤) (hb : Pos b k) : IsE (a / b) ⊤ := by
  obtain ⟨y, y0, y1⟩ := hb.pos
  have := value_divE ha y0 y1
  rwa [show divE ⊤ y = ⊤ by simp [divE]] at this

end tadpoles

open tadpoles

/-- **C128** (second derivatives at small momenta): if `q * beta` is so small that both exponentials are rounded to one, the computed second
derivatives `d2_j_0_i` and `d2_j_0_l_i` are infinite and have the wrong sign: the exact ones are positive and negative. -/
theorem C128_wrong_sign (q beta : Fl binary64) (x b w : ℝ) (hq : Is q x) (hb : Is beta b) (h1 : 10 ^ (-30 : ℤ) ≤ x) (h2 : x ≤ 10 ^ 30) (h0 : 0 < b)
    (hw : round64 (x * b) = (w : EReal)) (hw' : round64 (-x * b) = ((-w : ℝ) : EReal)) (w0 : 0 < w)
    (he : binary64.exp w = 1) (he' : binary64.exp (-w) = 1) :
    IsE (F.d2_j_0_i q beta) ⊥ ∧ 0 < thermal.d2_j_0_i x b ∧ IsE (F.d2_j_0_l_i q beta) ⊤ ∧ thermal.d2_j_0_l_i x b < 0 := by
  have x0 : 0 < x := lt_of_lt_of_le (by positivity) h1
  have Q := pos_of hq h1 h2
  have Q3 := (Q.mul Q (by norm_num)).mul Q (by norm_num)
  have T := bose_top hq hb x0.le h0 hw he
  have T' := bose_neg_top hq hb h0 hw' he'
  have nT' := isNeg_pos T' EReal.zero_lt_top
  have p : 0 < x * b := by positivity
  have ex := Real.add_one_lt_exp p.ne'
  have X1 : 0 < Real.exp (x * b) - 1 := by linarith
  have hpi : 0 < PI2 := mul_pos Real.pi_pos Real.pi_pos
  have bp : bose_distribution_zero_chempot x b = (Real.exp (x * b) - 1)⁻¹ := by
    simp [bose_distribution_zero_chempot, statistic_distribution_exponential_zero_chempot]
  have bm : bose_distribution_zero_chempot (-x) b = -(Real.exp (x * b) / (Real.exp (x * b) - 1)) := by
    have : bose_distribution_zero_chempot (-x) b = (Real.exp (-(x * b)) - 1)⁻¹ := by
      simp [bose_distribution_zero_chempot, statistic_distribution_exponential_zero_chempot]
    rw [this, Real.exp_neg]
    have hE := (Real.exp_pos (x * b)).ne'
    rw [show (Real.exp (x * b))⁻¹ - 1 = -((Real.exp (x * b) - 1) / Real.exp (x * b)) by field_simp; ring, inv_neg, inv_div]
  refine ⟨?_, ?_, ?_, ?_⟩
  · refine top_mul_bot (top_div T ((Q3.mul (Pos.const (c := 8) (by norm_num) (by norm_num)) (by norm_num)).mul pos_pi2 (by norm_num))) ?_
    have vb : (-(q * beta)).value = some ((-w : ℝ) : EReal) := by
      have h : (q * beta).value = some (w : EReal) := (value_mul hq hb).trans (congrArg some hw)
      have h' := value_neg h
      rw [← EReal.coe_neg] at h'
      exact h'
    have nb := isNeg_neg vb (by exact_mod_cast neg_lt_zero.2 w0)
    obtain ⟨y, y0, -⟩ := (Pos.const (c := 1) le_rfl (by norm_num)).pos
    have hw0 : w ≠ 0 := w0.ne'
    simp [IsE, Fl.mulAdd, val_of vb, val_of T', val_of y0, vb, show Fl.value _ = _ from T', y0, nb, nT', hw0]
  · have e : thermal.d2_j_0_i x b = bose_distribution_zero_chempot x b / (x * x * x * 8 * PI2) * (-(x * b) * bose_distribution_zero_chempot (-x) b + 1) := rfl
    rw [e, bp, bm]
    have := Real.exp_pos (x * b)
    have : 0 < -(x * b) * -(Real.exp (x * b) / (Real.exp (x * b) - 1)) + 1 := by
      have : 0 < x * b * (Real.exp (x * b) / (Real.exp (x * b) - 1)) := by positivity
      linarith
    positivity
  · refine top_mul_top (top_div T ((Pos.const (c := 8) (by norm_num) (by norm_num)).mul pos_pi2 (by norm_num))) ?_
    have nb := isNeg_pos hb (by exact_mod_cast h0)
    obtain ⟨o, o0, o1⟩ := (Pos.const (c := 1) le_rfl (by norm_num)).pos
    have oo : o = 1 := by
      have h : (ofR 1 : Fl binary64).value = some (round64 1) := value_round _ _
      rw [binary64_fixed ⟨1, 0, by norm_num, by norm_num, by norm_num, by norm_num⟩] at h
      rw [h] at o0
      exact_mod_cast (Option.some.inj o0).symm
    subst oo
    have d := value_div o0 hq x0.ne'
    obtain ⟨y, ey, -, -⟩ := between (x := 1 / x) (b_pow (n := -100) (by norm_num) (by norm_num)) (b_pow (n := 100) (by norm_num) (by norm_num))
      (by rw [le_div_iff₀ x0]
          have : (2 : ℝ) ^ (-100 : ℤ) * x ≤ 2 ^ (-100 : ℤ) * 10 ^ 30 := by gcongr
          exact this.trans (by norm_num))
      (by rw [div_le_iff₀ x0]
          have : (2 : ℝ) ^ (100 : ℤ) * 10 ^ (-30 : ℤ) ≤ 2 ^ (100 : ℤ) * x := by gcongr
          exact le_trans (by norm_num) this)
    have vy : (ofR 1 / q : Fl binary64).value = some (y : EReal) := d.trans (congrArg some ey)
    have hb0 : b ≠ 0 := h0.ne'
    simp [IsE, Fl.mulAdd, val_of hb, val_of T', val_of vy, vy, show Fl.value _ = _ from T', show Fl.value _ = _ from hb, nb, nT', hb0]
  · have e : thermal.d2_j_0_l_i x b = bose_distribution_zero_chempot x b / (8 * PI2) * (bose_distribution_zero_chempot (-x) b * b + 1 / x) := rfl
    rw [e, bp, bm]
    refine mul_neg_of_pos_of_neg (by positivity) ?_
    have k : 1 / x < Real.exp (x * b) / (Real.exp (x * b) - 1) * b := by
      rw [div_mul_eq_mul_div, div_lt_div_iff₀ x0 X1]
      have : Real.exp (x * b) * (1 - x * b) < 1 := by
        have h := Real.add_one_lt_exp (neg_ne_zero.2 p.ne')
        have := mul_lt_mul_of_pos_left h (Real.exp_pos (x * b))
        rw [← Real.exp_add, add_neg_cancel, Real.exp_zero] at this
        linarith
      linarith
    linarith

/-- Momentum `2^-60`, inverse temperature 1. -/
example : IsE (F.d2_j_0_i (num ((2 ^ (-60 : ℤ) : ℝ) : EReal) : Fl binary64) (num (1 : ℝ))) ⊥ ∧ 0 < thermal.d2_j_0_i (2 ^ (-60 : ℤ)) 1 ∧
    IsE (F.d2_j_0_l_i (num ((2 ^ (-60 : ℤ) : ℝ) : EReal) : Fl binary64) (num (1 : ℝ))) ⊤ ∧ thermal.d2_j_0_l_i (2 ^ (-60 : ℤ)) 1 < 0 := by
  have hx0 : (0 : ℝ) < 2 ^ (-60 : ℤ) := by positivity
  have h := Real.abs_exp_sub_one_le (x := (2 : ℝ) ^ (-60 : ℤ)) (by rw [abs_of_pos hx0]; norm_num)
  rw [abs_of_pos hx0] at h
  refine C128_wrong_sign (num ((2 ^ (-60 : ℤ) : ℝ) : EReal)) (num (1 : ℝ)) (2 ^ (-60 : ℤ)) 1 (2 ^ (-60 : ℤ)) (value_num _) (value_num _) (by norm_num) (by norm_num)
    one_pos ?_ ?_ hx0 ?_ ?_
  · rw [mul_one]
    exact binary64_fixed ⟨1, -60, by norm_num, by norm_num, by norm_num, by simp⟩
  · rw [mul_one]
    exact binary64_fixed ⟨-1, -60, by norm_num, by norm_num, by norm_num, by simp⟩
  · refine round64_near_one (Real.one_le_exp hx0.le) ?_
    have h' := (abs_le.1 h).2
    norm_num at h' ⊢
    linarith
  · change round64 (Real.exp (-(2 ^ (-60 : ℤ)))) = 1
    have b1 : Binary64 (1 : ℝ) := ⟨1, 0, by norm_num, by norm_num, by norm_num, by norm_num⟩
    have a := absorb (E := 1) (d := Real.exp (-(2 ^ (-60 : ℤ))) - 1) (n := 0) b1 (by norm_num) (by norm_num) (by norm_num) (by
      have h := Real.abs_exp_sub_one_le (x := -(2 : ℝ) ^ (-60 : ℤ)) (by rw [abs_neg, abs_of_pos hx0]; norm_num)
      rw [abs_neg, abs_of_pos hx0] at h
      exact lt_of_le_of_lt h (by norm_num))
    rw [add_sub_cancel] at a
    exact_mod_cast a

/-- **C128** (massive particles at a high temperature): if the exponential of the computed energy times `beta` is rounded to one, the integrands are
infinite. -/
theorem C128_massive_infinite (q m beta : Fl binary64) (x y b v w : ℝ) (hq : Is q x) (hm : Is m y) (hb : Is beta b) (h1 : 10 ^ (-30 : ℤ) ≤ x) (h2 : x ≤ 10 ^ 30)
    (h3 : |y| ≤ 10 ^ 30) (h0 : 0 < b) (hv : Is (F.energy q m) v) (hw : round64 (v * b) = (w : EReal)) (he : binary64.exp w = 1) :
    IsE (F.j_m_i q m beta) ⊤ ∧ IsE (F.j_m_t_i q m beta) ⊤ ∧ IsE (F.d2_j_m_t_i q m beta) ⊤ := by
  have Q := pos_of hq h1 h2
  have Q2 := Q.mul Q (by norm_num)
  have Q4 := Q2.mul Q2 (by norm_num)
  obtain ⟨E, -⟩ := pos_energy Q hm (h3.trans (by norm_num)) (by norm_num)
  have v0 : 0 ≤ v := by
    obtain ⟨t, t0, t1⟩ := E.pos
    have : (t : EReal) = (v : EReal) := Option.some.inj (t0.symm.trans hv)
    have : t = v := by exact_mod_cast this
    linarith
  have T := bose_top hv hb v0 h0 hw he
  have e (n : ℝ) (n1 : 1 ≤ n) (n2 : n ≤ 8) := (E.mul (Pos.const n1 n2) (by norm_num)).mul pos_pi2 (by norm_num)
  have mt {a b : Fl binary64} {k : ℕ} (ha : IsE a ⊤) (hb : Pos b k) : IsE (a * b) ⊤ := by
    obtain ⟨y, y0, y1⟩ := hb.pos
    have := value_mulE ha y0 y1
    rwa [show mulE binary64 ⊤ y = ⊤ by simp [mulE]] at this
  exact ⟨top_div (mt T Q2) (e 2 (by norm_num) (by norm_num)), top_div (mt T Q4) (e 6 (by norm_num) (by norm_num)), top_div T (e 8 (by norm_num) (by norm_num))⟩

/-- Momentum 3 and zero mass, inverse temperature `2^-62`. -/
example : IsE (F.j_m_i (num (3 : ℝ)) (num 0) (num ((2 ^ (-62 : ℤ) : ℝ) : EReal)) : Fl binary64) ⊤ := by
  have b3 : Binary64 (3 : ℝ) := ⟨3, 0, by norm_num, by norm_num, by norm_num, by norm_num⟩
  have e := C128_massless_energy (num (3 : ℝ)) 3 (value_num _) b3 (by norm_num) (by norm_num)
  have p : (0 : ℝ) < 3 * 2 ^ (-62 : ℤ) := by positivity
  refine (C128_massive_infinite (num (3 : ℝ)) (num 0) (num ((2 ^ (-62 : ℤ) : ℝ) : EReal)) 3 0 (2 ^ (-62 : ℤ)) 3 (3 * 2 ^ (-62 : ℤ)) (value_num _) rfl (value_num _)
    (by norm_num) (by norm_num) (by norm_num) (by positivity) (by rw [e]; exact value_num _)
    (binary64_fixed ⟨3, -62, by norm_num, by norm_num, by norm_num, by norm_num⟩) ?_).1
  refine round64_near_one (Real.one_le_exp p.le) ?_
  have h := Real.abs_exp_sub_one_le (x := (3 : ℝ) * 2 ^ (-62 : ℤ)) (by rw [abs_of_pos p]; norm_num)
  rw [abs_of_pos p] at h
  have h' := (abs_le.1 h).2
  norm_num at h' ⊢
  linarith

end Qcd
