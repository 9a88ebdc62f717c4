import Verif.Props.FloatTadpoles

/-!
# The integrands of the tadpoles without rounding

With exact operations the functions of Model/FloatTadpoles.lean are those of the exact model.
-/

namespace Qcd
open Spec Fl

namespace tadpoles

local notation "X" => Fl exactRounding

variable {a b c : X} {x y z : ℝ}

theorem ex_mul (ha : Is a x) (hb : Is b y) : Is (a * b) (x * y) := value_mul ha hb
theorem ex_add (ha : Is a x) (hb : Is b y) : Is (a + b) (x + y) := value_add ha hb
theorem ex_div (ha : Is a x) (hb : Is b y) (hy : y ≠ 0) : Is (a / b) (x / y) := value_div ha hb hy
theorem ex_neg (ha : Is a x) : Is (-a) (-x) := by
  have h := value_neg ha
  rw [← EReal.coe_neg] at h
  exact h
theorem ex_const (t : ℝ) : Is (ofR t : X) t := value_round _ _
theorem ex_pi2 : Is (F.PI2 : X) PI2 := ex_mul (ex_const _) (ex_const _)
theorem ex_energy (ha : Is a x) (hb : Is b y) : Is (F.energy a b) (energy x y) := by
  rw [Is, energy_eq ha hb, value_num]
  simp only [sqE, addE, sqrtE, exactRounding, EReal.toReal_coe, EReal.coe_ne_top, EReal.coe_ne_bot, or_self, if_false]
  simp [energy, energy_squared]
theorem ex_mulAdd (ha : Is a x) (hb : Is b y) (hc : Is c z) : Is (mulAdd a b c) (x * y + z) := by
  change (mulAdd a b c).value = _
  unfold mulAdd
  simp only [show a.value = some (x : EReal) from ha, show b.value = some (y : EReal) from hb, show c.value = some (z : EReal) from hc,
    val_of ha, val_of hb, val_of hc, EReal.toReal_coe]
  simp
  rw [value_round]
  simp [exactRounding]
theorem ex_bose (ha : Is a x) (hb : Is b y) (h : x * y ≠ 0) : Is (F.bose_distribution_zero_chempot a b) (bose_distribution_zero_chempot x y) := by
  have e : F.bose_distribution_zero_chempot a b = (num ((1 : ℝ) : EReal)) / (exp (a * b) + -(num ((1 : ℝ) : EReal))) := rfl
  have m := ex_mul ha hb
  have v : Is (exp (a * b)) (Real.exp (x * y)) := by
    rw [Is, exp_eq m, value_num]
    generalize x * y = t
    simp [expE, exactRounding]
  have d := ex_add v (ex_neg (value_num (r := exactRounding) ((1 : ℝ) : EReal)))
  have n : Real.exp (x * y) + -1 ≠ 0 := by
    rw [← sub_eq_add_neg, sub_ne_zero, Ne, Real.exp_eq_one_iff]; exact h
  have q := ex_div (value_num (r := exactRounding) ((1 : ℝ) : EReal)) d n
  rw [e]
  have : bose_distribution_zero_chempot x y = 1 / (Real.exp (x * y) + -1) := by
    simp [bose_distribution_zero_chempot, statistic_distribution_exponential_zero_chempot, sub_eq_add_neg]
  rw [this]
  exact q

end tadpoles

open tadpoles

/-- **C128** (without rounding, zero mass): the functions are those of the exact model. -/
theorem C128_massless_exact (x b : ℝ) (hx : 0 < x) (hb : 0 < b) :
    let q : Fl exactRounding := num x
    let beta : Fl exactRounding := num b
    Is (F.j_0_i q beta) (thermal.j_0_i x b) ∧ Is (F.j_0_l_i q beta) (thermal.j_0_l_i x b) ∧ Is (F.j_0_t_i q beta) (thermal.j_0_t_i x b) ∧
    Is (F.d_j_0_i q beta) (thermal.d_j_0_i x b) ∧ Is (F.d_j_0_l_i q beta) (thermal.d_j_0_l_i x b) ∧ Is (F.d_j_0_t_i q beta) (thermal.d_j_0_t_i x b) ∧
    Is (F.d2_j_0_i q beta) (thermal.d2_j_0_i x b) ∧ Is (F.d2_j_0_l_i q beta) (thermal.d2_j_0_l_i x b) ∧ Is (F.d2_j_0_t_i q beta) (thermal.d2_j_0_t_i x b) := by
  intro q beta
  have Q : Is q x := value_num _
  have T : Is beta b := value_num _
  have p : 0 < x * b := by positivity
  have hp : 0 < PI2 := mul_pos Real.pi_pos Real.pi_pos
  have B := ex_bose Q T p.ne'
  have M := ex_bose (ex_neg Q) T (by rw [neg_mul]; exact neg_ne_zero.2 p.ne')
  have Q2 := ex_mul Q Q
  have Q3 := ex_mul Q2 Q
  have c (k : ℝ) := ex_mul (ex_const k) ex_pi2
  have e (k : ℝ) := ex_mul (ex_mul Q (ex_const k)) ex_pi2
  refine ⟨ex_div (ex_mul B Q) (c 2) (by positivity), ex_div (ex_mul (ex_neg B) Q3) (c 2) (by positivity), ex_div (ex_mul B Q3) (c 6) (by positivity),
    ex_div (ex_neg B) (e 4) (by positivity), ex_div (ex_mul Q B) (c 4) (by positivity), ex_div (ex_mul (ex_neg B) Q) (c 4) (by positivity),
    ex_mul (ex_div B (ex_mul (ex_mul Q3 (ex_const 8)) ex_pi2) (by positivity)) (ex_mulAdd (ex_neg (ex_mul Q T)) M (ex_const 1)),
    ex_mul (ex_div B (c 8) (by positivity)) (ex_mulAdd M T (ex_div (ex_const 1) Q hx.ne')), ex_div B (e 8) (by positivity)⟩

/-- **C128** (without rounding, massive particles). -/
theorem C128_massive_exact (x y b : ℝ) (hx : 0 < x) (hb : 0 < b) :
    let q : Fl exactRounding := num x
    let m : Fl exactRounding := num y
    let beta : Fl exactRounding := num b
    Is (F.j_m_i q m beta) (thermal.j_m_i x y b) ∧ Is (F.j_m_l_i q m beta) (thermal.j_m_l_i x y b) ∧ Is (F.j_m_t_i q m beta) (thermal.j_m_t_i x y b) ∧
    Is (F.d_j_m_i q m beta) (thermal.d_j_m_i x y b) ∧ Is (F.d_j_m_l_i q m beta) (thermal.d_j_m_l_i x y b) ∧
    Is (F.d_j_m_t_i q m beta) (thermal.d_j_m_t_i x y b) ∧ Is (F.d2_j_m_i q m beta) (thermal.d2_j_m_i x y b) ∧
    Is (F.d2_j_m_l_i q m beta) (thermal.d2_j_m_l_i x y b) ∧ Is (F.d2_j_m_t_i q m beta) (thermal.d2_j_m_t_i x y b) := by
  intro q m beta
  have Q : Is q x := value_num _
  have T : Is beta b := value_num _
  have E : Is (F.energy q m) (energy x y) := ex_energy Q (value_num _)
  have hE : 0 < energy x y := by
    have : energy x y = Real.sqrt (y * y + x * x) := by simp [energy, energy_squared]
    rw [this]
    exact Real.sqrt_pos.2 (by nlinarith [mul_self_nonneg y, mul_pos hx hx])
  have p : 0 < energy x y * b := by positivity
  have hp : 0 < PI2 := mul_pos Real.pi_pos Real.pi_pos
  have B := ex_bose E T p.ne'
  have M := ex_bose (ex_neg E) T (by rw [neg_mul]; exact neg_ne_zero.2 p.ne')
  have Q2 := ex_mul Q Q
  have Q4 := ex_mul Q2 Q2
  have E3 := ex_mul (ex_mul E E) E
  have c (k : ℝ) := ex_mul (ex_const k) ex_pi2
  have e (k : ℝ) := ex_mul (ex_mul E (ex_const k)) ex_pi2
  have I : Is ((F.energy q m)⁻¹) (energy x y)⁻¹ := by
    have h := ex_div (value_num (r := exactRounding) ((1 : ℝ) : EReal)) E hE.ne'
    rw [one_div] at h
    exact h
  have nc (k : ℝ) (hk : 0 < k) : k * PI2 ≠ 0 := by positivity
  have ne (k : ℝ) (hk : 0 < k) : energy x y * k * PI2 ≠ 0 := by positivity
  have n3 : energy x y * energy x y * energy x y * 8 * PI2 ≠ 0 := by positivity
  refine ⟨ex_div (ex_mul B Q2) (e 2) (ne 2 (by norm_num)), ex_div (ex_mul (ex_mul (ex_neg B) Q2) E) (c 2) (nc 2 (by norm_num)), ex_div (ex_mul B Q4) (e 6) (ne 6 (by norm_num)),
    ex_div (ex_neg B) (e 4) (ne 4 (by norm_num)), ex_div (ex_mul E B) (c 4) (nc 4 (by norm_num)), ex_div (ex_mul (ex_neg B) Q2) (e 4) (ne 4 (by norm_num)),
    ex_mul (ex_div B (ex_mul (ex_mul E3 (ex_const 8)) ex_pi2) n3) (ex_add (ex_mul (ex_neg (ex_mul E T)) M) (ex_const 1)),
    ex_mul (ex_div B (c 8) (nc 8 (by norm_num))) (ex_add (ex_mul M T) I), ex_div B (e 8) (ne 8 (by norm_num))⟩

/-- Momentum 3, mass 4, inverse temperature 2. -/
example : Is (F.d2_j_m_l_i (num (3 : ℝ)) (num (4 : ℝ)) (num (2 : ℝ)) : Fl exactRounding) (thermal.d2_j_m_l_i 3 (4 : ℝ) 2) ∧
    Is (F.d2_j_0_i (num (3 : ℝ)) (num (2 : ℝ)) : Fl exactRounding) (thermal.d2_j_0_i 3 2) :=
  ⟨(C128_massive_exact 3 4 2 (by norm_num) (by norm_num)).2.2.2.2.2.2.2.1, (C128_massless_exact 3 2 (by norm_num) (by norm_num)).2.2.2.2.2.2.1⟩

end Qcd
