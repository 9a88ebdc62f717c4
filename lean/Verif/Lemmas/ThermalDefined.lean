import Verif.Lemmas.PartialNum

/-! # The thermal integrands are defined

One lemma for each definition of `Model/ThermalPartial.lean`, in the same order. -/

namespace Qcd.Def
open consts (Consts)
open PV

theorem energy_val (q m : ℝ) : P.energy (val q) (val m) = val (energy q m) := by
  simp only [P.energy, P.energy_squared, mul_val, ofR_val, add_val]
  exact sqrt_val_real (add_nonneg (mul_self_nonneg m) (mul_self_nonneg q))

theorem exp_sub_one_ne {x : ℝ} (h : x ≠ 0) : Real.exp x - 1 ≠ 0 := fun h' => h (by
  have : Real.exp x = 1 := by linarith
  exact (Real.exp_eq_one_iff x).1 this)

theorem bose_val {en : ℝ} (h : en ≠ 0) {beta : ℝ} (hb : 0 < beta) : P.bose_distribution_zero_chempot (val en) (val beta) = val (bose_distribution_zero_chempot en beta) := by
  simp only [P.bose_distribution_zero_chempot, P.statistic_distribution_exponential_zero_chempot, num_val, ofR_val, mul_val, exp_val, sub_val]
  exact inv_val (exp_sub_one_ne (mul_ne_zero h hb.ne'))

theorem exp_add_one_ne (x : ℝ) : NumOps.exp x + 1 ≠ 0 := (add_pos (Real.exp_pos x) one_pos).ne'

theorem fermi_val (en beta mu : ℝ) : P.fermi_distribution_double (val en) (val beta) (val mu) = val (fermi_distribution_double en beta mu) := by
  simp only [P.fermi_distribution_double, P.statistic_distribution_exponential, num_val, mul_val, exp_val, sub_val, add_val, neg_val]
  rw [inv_val (exp_add_one_ne _), inv_val (exp_add_one_ne _)]
  rfl

theorem fermi_zero_val (en mu : ℝ) : P.fermi_distribution_double_zero_temp (val en) (val mu) = val (fermi_distribution_double_zero_temp en mu) := rfl

section
variable {T1 T2 T3 T4 : Type} [Num T1] [NumDom T1] [Num T2] [NumDom T2] [Num T3] [NumDom T3] [Num T4] [NumDom T4]

theorem thermal_r_0_val (om : T1) (p : T2) (en : T3) (delta : T4) : P.thermal.r_0 (val om) (val p) (val en) (val delta) = val (thermal.r_0 om p en delta) := rfl
theorem thermal_r_0_same_mass_val (om : T1) (p : T2) (en : T3) : P.thermal.r_0_same_mass (val om) (val p) (val en) = val (thermal.r_0_same_mass om p en) := rfl
theorem thermal_zero_momentum_r_0_val (om : T1) (en : T3) (delta : T4) : P.thermal.zero_momentum.r_0 (val om) (val en) (val delta) = val (thermal.zero_momentum.r_0 om en delta) := rfl
theorem thermal_zero_momentum_r_0_same_mass_val (om : T1) (en : T3) : P.thermal.zero_momentum.r_0_same_mass (val om) (val en) = val (thermal.zero_momentum.r_0_same_mass om en) := rfl
theorem thermal_zero_matsubara_r_0_val (p : ℝ) (delta : T4) : P.thermal.zero_matsubara.r_0 (val p) (val delta) = val (thermal.zero_matsubara.r_0 p delta) := rfl

theorem thermal_tlog_val (q : ℝ) (om : T1) (p : ℝ) (en : ℝ) (delta : T4) (h1 : toC (p * q * 2) + thermal.r_0 om p en delta ≠ 0) (h2 : toC (-(p * q * 2)) + thermal.r_0 om p en delta ≠ 0) :
    P.thermal.tlog (val q) (val om) (val p) (val en) (val delta) = val (thermal.tlog q om p en delta) := by
  simp only [P.thermal.tlog, thermal_r_0_val, num_val, ofR_val, ofR_real, mul_val, toC_val, neg_val, add_val]
  rw [div_val h2, ln_val (div_ne_zero h1 h2)]
  rfl

theorem thermal_tlog_same_mass_val (q : ℝ) (om : T1) (p : ℝ) (en : ℝ) (h1 : toC (p * q * 2) + thermal.r_0_same_mass om p en ≠ 0) (h2 : toC (-(p * q * 2)) + thermal.r_0_same_mass om p en ≠ 0) :
    P.thermal.tlog_same_mass (val q) (val om) (val p) (val en) = val (thermal.tlog_same_mass q om p en) := by
  simp only [P.thermal.tlog_same_mass, thermal_r_0_same_mass_val, num_val, ofR_val, ofR_real, mul_val, toC_val, neg_val, add_val]
  rw [div_val h2, ln_val (div_ne_zero h1 h2)]
  rfl

theorem thermal_tlog_zero_mass_val (q : ℝ) (om : T1) (p : ℝ) (ho : (toC om).re ≠ 0) :
    P.thermal.tlog_zero_mass (val q) (val om) (val p) = val (thermal.tlog_zero_mass q om p) :=
  thermal_tlog_same_mass_val q om p q (add_r0s_q ho (by ring)) (add_r0s_q ho (by ring))

theorem thermal_zero_matsubara_tlog_val (q p : ℝ) (delta : T4) (h1 : thermal.zero_matsubara.r_0 p delta + (ofR (q * 2 * p) : T4) ≠ 0) (h2 : thermal.zero_matsubara.r_0 p delta - (ofR (q * 2 * p) : T4) ≠ 0) :
    P.thermal.zero_matsubara.tlog (val q) (val p) (val delta) = val (thermal.zero_matsubara.tlog q p delta) := by
  simp only [P.thermal.zero_matsubara.tlog, thermal_zero_matsubara_r_0_val, num_val, ofR_val, mul_val, toC_val, sub_val, add_val]
  rw [div_val h2, mul_val, toC_val, ln_val (toC_ne (mul_ne_zero (div_ne_zero h1 h2) (div_ne_zero h1 h2))), div_val (by norm_num)]
  rfl

theorem thermal_zero_matsubara_tlog_same_mass_val (q p : ℝ) (hq : 0 < q) (hp : 0 < p) (h2 : 2 * -q + p ≠ 0) :
    P.thermal.zero_matsubara.tlog_same_mass (val q) (val p) = val (thermal.zero_matsubara.tlog_same_mass q p) := by
  have h3 : (2 * q + p) / (2 * -q + p) ≠ 0 := div_ne_zero (by positivity) h2
  simp only [P.thermal.zero_matsubara.tlog_same_mass, num_val, mul_val, neg_val, add_val]
  rw [div_val h2, mul_val, ln_val_real (mul_self_pos.2 h3), div_val (by norm_num)]
  rfl
end

syntax "zr" : tactic
set_option hygiene false in
macro_rules | `(tactic| zr) => `(tactic| (
  simp only [toC_real, toC_complex, toC_mul', toC_neg', toC_sub', Complex.sub_im, Complex.sub_re, Complex.neg_im, Complex.neg_re, Complex.mul_im, Complex.mul_re,
      Complex.ofReal_im, Complex.ofReal_re, mul_zero, zero_mul, sub_zero, add_zero, neg_zero, sub_self, neg_mul, neg_neg]
  first | (intro h; apply hR; linear_combination h) | (intro h; apply hR2; linear_combination h)))

theorem zMr_add {q p x d : ℝ} (hx : x * x = 4 * (q * q) * (p * p)) (hd : (toC d).im = 0) (h : (p * p + (toC d).re) ^ 2 ≠ (2 * q * p) ^ 2) : thermal.zero_matsubara.r_0 p d + x ≠ 0 := zM_add hx hd h
theorem zMr_sub {q p x d : ℝ} (hx : x * x = 4 * (q * q) * (p * p)) (hd : (toC d).im = 0) (h : (p * p + (toC d).re) ^ 2 ≠ (2 * q * p) ^ 2) : thermal.zero_matsubara.r_0 p d - x ≠ 0 := zM_sub hx hd h

theorem toC_sub' {T : Type} [Num T] (x y : T) : toC (x - y) = toC x - toC y := map_sub (Num.toC : T →+* ℂ) x y

theorem real_sq_pos {x : ℝ} (h : x ≠ 0) : x * x ≠ 0 := mul_ne_zero h h

syntax "nz" : tactic
syntax "dl" : tactic

macro_rules | `(tactic| dl) => `(tactic| first
  | (simp only [toC_real, toC_complex, toC_mul', toC_neg', toC_sub', Complex.sub_im, Complex.sub_re, Complex.neg_im, Complex.neg_re, Complex.mul_im, Complex.mul_re,
      Complex.ofReal_im, Complex.ofReal_re, mul_zero, zero_mul, sub_zero, add_zero, neg_zero, sub_self, neg_mul, neg_neg]; done)
  | (simp only [toC_real, toC_complex, toC_mul', toC_neg', toC_sub', Complex.sub_im, Complex.sub_re, Complex.neg_im, Complex.neg_re, Complex.mul_im, Complex.mul_re,
      Complex.ofReal_im, Complex.ofReal_re, mul_zero, zero_mul, sub_zero, add_zero, neg_zero, sub_self, neg_mul, neg_neg]; nlinarith)
  | nlinarith)

syntax "nzAdd" : tactic
syntax "nzSub" : tactic
syntax "nzR" : tactic

open Lean Elab Tactic Meta in
/-- Shows that an expression is not zero, following its structure. -/
elab_rules : tactic
  | `(tactic| nz) => Lean.Meta.withTransparency .default do
    let g ← getMainGoal
    let t ← instantiateMVars (← g.getType)
    let some (_, e, _) := t.consumeMData.ne? | (evalTactic (← `(tactic| assumption)))
    let e := e.consumeMData
    match e.getAppFn with
    | .fvar _ => evalTactic (← `(tactic| with_reducible_and_instances first | assumption | exact om_ne (by assumption)))
    | .const `HMul.hMul _ => evalTactic (← `(tactic| (refine mul_ne_zero ?_ ?_) <;> nz))
    | .const `HDiv.hDiv _ => evalTactic (← `(tactic| (refine div_ne_zero ?_ ?_) <;> nz))
    | .const `Neg.neg _ => evalTactic (← `(tactic| (refine neg_ne_zero.2 ?_) <;> nz))
    | .const `OfNat.ofNat _ => evalTactic (← `(tactic| exact OfNat.ofNat_ne_zero _))
    | .const `Qcd.ofR _ => evalTactic (← `(tactic| (refine ofR_ne_zero ?_) <;> nz))
    | .const `Qcd.toC _ => evalTactic (← `(tactic| (refine toC_ne ?_) <;> nz))
    | .const `Qcd.energy _ => evalTactic (← `(tactic| exact energy_ne (by assumption)))
    | .const `Qcd.PI2 _ => evalTactic (← `(tactic| exact PI2_ne))
    | .const `Complex.re _ => evalTactic (← `(tactic| with_reducible_and_instances first | assumption | exact re_neg_ne (by assumption)))
    | .const `HAdd.hAdd _ => evalTactic (← `(tactic| nzAdd))
    | .const `HSub.hSub _ => evalTactic (← `(tactic| nzSub))
    | .const `Qcd.thermal.zero_momentum.r_0 _ => evalTactic (← `(tactic| nzR))
    | .const `Qcd.thermal.zero_momentum.r_0_same_mass _ => evalTactic (← `(tactic| nzR))
    | _ => evalTactic (← `(tactic| assumption))

set_option hygiene false in
macro_rules | `(tactic| nzAdd) => `(tactic| first
  | with_reducible_and_instances assumption
  | (with_reducible_and_instances refine sum_ne_p ?_ _) <;> nz
  | (with_reducible_and_instances refine sum_ne_T ?_ _) <;> nz
  | (with_reducible_and_instances refine sum_ne_four ?_ _) <;> nz
  | (with_reducible_and_instances refine add_r0s ?_ ?_) <;> [nz; ring1]
  | (with_reducible_and_instances refine add_r0s_q ?_ ?_) <;> [nz; ring1]
  | (with_reducible_and_instances refine r0s_add ?_ ?_) <;> [nz; ring1]
  | (with_reducible_and_instances refine r0s_add_q ?_ ?_) <;> [nz; ring1]
  | (with_reducible_and_instances refine add_r0 ?_ ?_ ?_ ?_) <;> [nz; ring1; dl; dl]
  | (with_reducible_and_instances refine add_r0_q ?_ ?_ ?_ ?_) <;> [nz; ring1; dl; dl]
  | (with_reducible_and_instances refine r0_add ?_ ?_ ?_ ?_) <;> [nz; ring1; dl; dl]
  | (with_reducible_and_instances refine r0_add_q ?_ ?_ ?_ ?_) <;> [nz; ring1; dl; dl]
  | (with_reducible_and_instances refine z_same_add ?_) <;> nz
  | (with_reducible_and_instances refine z_q_add ?_) <;> nz
  | (with_reducible_and_instances refine z_add ?_ ?_ ?_) <;> [nz; dl; dl]
  | (with_reducible_and_instances refine z_sub ?_ ?_ ?_) <;> [nz; dl; dl]
  | (with_reducible_and_instances refine z_add' ?_ ?_ ?_) <;> [nz; dl; dl]
  | (with_reducible_and_instances refine z_sub' ?_ ?_ ?_) <;> [nz; dl; dl]
  | (with_reducible_and_instances refine z_q_add' ?_ ?_ ?_) <;> [nz; dl; dl]
  | (with_reducible_and_instances refine z_q_sub' ?_ ?_ ?_) <;> [nz; dl; dl]
  | (with_reducible_and_instances refine zMr_add (q := q) ?_ ?_ ?_) <;> [(first | ring1 | (simp only [ofR_real]; ring1)); dl; zr]
  | (with_reducible_and_instances refine zM_add (q := q) ?_ ?_ ?_) <;> [ring1; dl; zr])

set_option hygiene false in
macro_rules | `(tactic| nzSub) => `(tactic| first
  | with_reducible_and_instances assumption
  | (with_reducible_and_instances refine r0s_sub ?_ ?_) <;> [nz; ring1]
  | (with_reducible_and_instances refine r0s_sub_q ?_ ?_) <;> [nz; ring1]
  | (with_reducible_and_instances refine r0_sub ?_ ?_ ?_ ?_) <;> [nz; ring1; dl; dl]
  | (with_reducible_and_instances refine r0_sub_q ?_ ?_ ?_ ?_) <;> [nz; ring1; dl; dl]
  | (with_reducible_and_instances refine z_same_sub ?_) <;> nz
  | (with_reducible_and_instances refine z_q_sub ?_) <;> nz
  | (with_reducible_and_instances refine z_add_neg ?_ ?_ ?_) <;> [nz; dl; dl]
  | (with_reducible_and_instances refine z_sub_neg ?_ ?_ ?_) <;> [nz; dl; dl]
  | (with_reducible_and_instances refine zMr_sub (q := q) ?_ ?_ ?_) <;> [(first | ring1 | (simp only [ofR_real]; ring1)); dl; zr]
  | (with_reducible_and_instances refine zM_sub (q := q) ?_ ?_ ?_) <;> [ring1; dl; zr])

macro_rules | `(tactic| nzR) => `(tactic| first
  | with_reducible_and_instances assumption
  | (with_reducible_and_instances refine z_r0 ?_ ?_ ?_) <;> [nz; dl; dl]
  | (with_reducible_and_instances refine z_r0_q ?_ ?_ ?_) <;> [nz; dl; dl]
  | (with_reducible_and_instances refine z_r0s ?_) <;> nz
  | (with_reducible_and_instances refine z_r0s_q ?_) <;> nz)

theorem thermal_tlog_l_val {T : Type} [Num T] [NumDom T] {T4 : Type} [Num T4] [NumDom T4] (q : ℝ) (om : T) (p : ℝ) (en : ℝ) (delta : T4) (ho : (toC om).re ≠ 0) (hp : p ≠ 0) (hen : en ≠ 0) (h1 : toC (p * q * 2) + thermal.r_0 om p en delta ≠ 0) (h2 : toC (-(p * q * 2)) + thermal.r_0 om p en delta ≠ 0) :
    P.thermal.tlog_l (val q) (val om) (val p) (val en) (val delta) = val (Qcd.thermal.tlog_l q om p en delta) := by
  simp (disch := nz) only [P.thermal.tlog_l, Qcd.thermal.tlog_l, ofR_real, num_val, I_val, add_val, sub_val, mul_val, neg_val, inv_val, div_val, ofR_val, toC_val, energy_val, bose_val, fermi_val, fermi_zero_val, thermal_tlog_val]

theorem thermal_tlog_l_same_mass_val {T : Type} [Num T] [NumDom T] (q : ℝ) (om : T) (p : ℝ) (en : ℝ) (ho : (toC om).re ≠ 0) (hp : p ≠ 0) (hen : en ≠ 0) (h1 : toC (p * q * 2) + thermal.r_0_same_mass om p en ≠ 0) (h2 : toC (-(p * q * 2)) + thermal.r_0_same_mass om p en ≠ 0) :
    P.thermal.tlog_l_same_mass (val q) (val om) (val p) (val en) = val (Qcd.thermal.tlog_l_same_mass q om p en) := by
  simp (disch := nz) only [P.thermal.tlog_l_same_mass, Qcd.thermal.tlog_l_same_mass, ofR_real, num_val, I_val, add_val, sub_val, mul_val, neg_val, inv_val, div_val, ofR_val, toC_val, energy_val, bose_val, fermi_val, fermi_zero_val, thermal_tlog_same_mass_val]

theorem thermal_tlog_l_zero_mass_val {T : Type} [Num T] [NumDom T] (q : ℝ) (om : T) (p : ℝ) (hq : 0 < q) (ho : (toC om).re ≠ 0) (hp : p ≠ 0) :
    P.thermal.tlog_l_zero_mass (val q) (val om) (val p) = val (Qcd.thermal.tlog_l_zero_mass q om p) := by
  have hq0 := hq.ne'
  simp (disch := nz) only [P.thermal.tlog_l_zero_mass, Qcd.thermal.tlog_l_zero_mass, ofR_real, num_val, I_val, add_val, sub_val, mul_val, neg_val, inv_val, div_val, ofR_val, toC_val, energy_val, bose_val, fermi_val, fermi_zero_val, thermal_tlog_zero_mass_val]

theorem thermal_tlog_t_val {T : Type} [Num T] [NumDom T] {T4 : Type} [Num T4] [NumDom T4] (q : ℝ) (om : T) (p : ℝ) (en : ℝ) (delta : T4) (ho : (toC om).re ≠ 0) (hp : p ≠ 0) (hen : en ≠ 0) (h1 : toC (p * q * 2) + thermal.r_0 om p en delta ≠ 0) (h2 : toC (-(p * q * 2)) + thermal.r_0 om p en delta ≠ 0) :
    P.thermal.tlog_t (val q) (val om) (val p) (val en) (val delta) = val (Qcd.thermal.tlog_t q om p en delta) := by
  simp (disch := nz) only [P.thermal.tlog_t, Qcd.thermal.tlog_t, ofR_real, num_val, I_val, add_val, sub_val, mul_val, neg_val, inv_val, div_val, ofR_val, toC_val, energy_val, bose_val, fermi_val, fermi_zero_val, thermal_r_0_val, thermal_tlog_val]

theorem thermal_tlog_t_same_mass_val {T : Type} [Num T] [NumDom T] (q : ℝ) (om : T) (p : ℝ) (en : ℝ) (ho : (toC om).re ≠ 0) (hp : p ≠ 0) (hen : en ≠ 0) (h1 : toC (p * q * 2) + thermal.r_0_same_mass om p en ≠ 0) (h2 : toC (-(p * q * 2)) + thermal.r_0_same_mass om p en ≠ 0) :
    P.thermal.tlog_t_same_mass (val q) (val om) (val p) (val en) = val (Qcd.thermal.tlog_t_same_mass q om p en) := by
  simp (disch := nz) only [P.thermal.tlog_t_same_mass, Qcd.thermal.tlog_t_same_mass, ofR_real, num_val, I_val, add_val, sub_val, mul_val, neg_val, inv_val, div_val, ofR_val, toC_val, energy_val, bose_val, fermi_val, fermi_zero_val, thermal_r_0_same_mass_val, thermal_tlog_same_mass_val]

theorem thermal_tlog_t_zero_mass_val {T : Type} [Num T] [NumDom T] (q : ℝ) (om : T) (p : ℝ) (hq : 0 < q) (ho : (toC om).re ≠ 0) (hp : p ≠ 0) :
    P.thermal.tlog_t_zero_mass (val q) (val om) (val p) = val (Qcd.thermal.tlog_t_zero_mass q om p) := by
  have hq0 := hq.ne'
  simp (disch := nz) only [P.thermal.tlog_t_zero_mass, Qcd.thermal.tlog_t_zero_mass, ofR_real, num_val, I_val, add_val, sub_val, mul_val, neg_val, inv_val, div_val, ofR_val, toC_val, energy_val, bose_val, fermi_val, fermi_zero_val, thermal_r_0_same_mass_val, thermal_tlog_zero_mass_val]

theorem thermal_j_m_i_val (q : ℝ) (m : ℝ) (beta : ℝ) (hq : 0 < q) (hb : 0 < beta) :
    P.thermal.j_m_i (val q) (val m) (val beta) = val (Qcd.thermal.j_m_i q m beta) := by
  have hq0 := hq.ne'
  simp (disch := nz) only [P.thermal.j_m_i, Qcd.thermal.j_m_i, ofR_real, num_val, I_val, add_val, sub_val, mul_val, neg_val, inv_val, div_val, ofR_val, toC_val, energy_val, bose_val, fermi_val, fermi_zero_val]

theorem thermal_j_0_i_val (q : ℝ) (beta : ℝ) (hq : 0 < q) (hb : 0 < beta) :
    P.thermal.j_0_i (val q) (val beta) = val (Qcd.thermal.j_0_i q beta) := by
  have hq0 := hq.ne'
  simp (disch := nz) only [P.thermal.j_0_i, Qcd.thermal.j_0_i, ofR_real, num_val, I_val, add_val, sub_val, mul_val, neg_val, inv_val, div_val, ofR_val, toC_val, energy_val, bose_val, fermi_val, fermi_zero_val]

theorem thermal_j_m_l_i_val (q : ℝ) (m : ℝ) (beta : ℝ) (hq : 0 < q) (hb : 0 < beta) :
    P.thermal.j_m_l_i (val q) (val m) (val beta) = val (Qcd.thermal.j_m_l_i q m beta) := by
  have hq0 := hq.ne'
  simp (disch := nz) only [P.thermal.j_m_l_i, Qcd.thermal.j_m_l_i, ofR_real, num_val, I_val, add_val, sub_val, mul_val, neg_val, inv_val, div_val, ofR_val, toC_val, energy_val, bose_val, fermi_val, fermi_zero_val]

theorem thermal_j_0_l_i_val (q : ℝ) (beta : ℝ) (hq : 0 < q) (hb : 0 < beta) :
    P.thermal.j_0_l_i (val q) (val beta) = val (Qcd.thermal.j_0_l_i q beta) := by
  have hq0 := hq.ne'
  simp (disch := nz) only [P.thermal.j_0_l_i, Qcd.thermal.j_0_l_i, ofR_real, num_val, I_val, add_val, sub_val, mul_val, neg_val, inv_val, div_val, ofR_val, toC_val, energy_val, bose_val, fermi_val, fermi_zero_val]

theorem thermal_j_m_t_i_val (q : ℝ) (m : ℝ) (beta : ℝ) (hq : 0 < q) (hb : 0 < beta) :
    P.thermal.j_m_t_i (val q) (val m) (val beta) = val (Qcd.thermal.j_m_t_i q m beta) := by
  have hq0 := hq.ne'
  simp (disch := nz) only [P.thermal.j_m_t_i, Qcd.thermal.j_m_t_i, ofR_real, num_val, I_val, add_val, sub_val, mul_val, neg_val, inv_val, div_val, ofR_val, toC_val, energy_val, bose_val, fermi_val, fermi_zero_val]

theorem thermal_j_0_t_i_val (q : ℝ) (beta : ℝ) (hq : 0 < q) (hb : 0 < beta) :
    P.thermal.j_0_t_i (val q) (val beta) = val (Qcd.thermal.j_0_t_i q beta) := by
  have hq0 := hq.ne'
  simp (disch := nz) only [P.thermal.j_0_t_i, Qcd.thermal.j_0_t_i, ofR_real, num_val, I_val, add_val, sub_val, mul_val, neg_val, inv_val, div_val, ofR_val, toC_val, energy_val, bose_val, fermi_val, fermi_zero_val]

theorem thermal_i_m_m_i_val {T : Type} [Num T] [NumDom T] (q : ℝ) (om : T) (p : ℝ) (m1 : ℝ) (m2 : ℝ) (beta : ℝ) (hq : 0 < q) (ho : (toC om).re ≠ 0) (hp : p ≠ 0) (hb : 0 < beta) :
    P.thermal.i_m_m_i (val q) (val om) (val p) (val m1) (val m2) (val beta) = val (Qcd.thermal.i_m_m_i q om p m1 m2 beta) := by
  have hq0 := hq.ne'
  simp (disch := nz) only [P.thermal.i_m_m_i, Qcd.thermal.i_m_m_i, ofR_real, num_val, I_val, add_val, sub_val, mul_val, neg_val, inv_val, div_val, ofR_val, toC_val, energy_val, bose_val, fermi_val, fermi_zero_val, thermal_tlog_val]

theorem thermal_i_m_m_i_same_mass_val {T : Type} [Num T] [NumDom T] (q : ℝ) (om : T) (p : ℝ) (m : ℝ) (beta : ℝ) (hq : 0 < q) (ho : (toC om).re ≠ 0) (hp : p ≠ 0) (hb : 0 < beta) :
    P.thermal.i_m_m_i_same_mass (val q) (val om) (val p) (val m) (val beta) = val (Qcd.thermal.i_m_m_i_same_mass q om p m beta) := by
  have hq0 := hq.ne'
  simp (disch := nz) only [P.thermal.i_m_m_i_same_mass, Qcd.thermal.i_m_m_i_same_mass, ofR_real, num_val, I_val, add_val, sub_val, mul_val, neg_val, inv_val, div_val, ofR_val, toC_val, energy_val, bose_val, fermi_val, fermi_zero_val, thermal_tlog_same_mass_val]

theorem thermal_i_m_0_i_val {T : Type} [Num T] [NumDom T] (q : ℝ) (om : T) (p : ℝ) (m : ℝ) (beta : ℝ) (hq : 0 < q) (ho : (toC om).re ≠ 0) (hp : p ≠ 0) (hb : 0 < beta) :
    P.thermal.i_m_0_i (val q) (val om) (val p) (val m) (val beta) = val (Qcd.thermal.i_m_0_i q om p m beta) := by
  have hq0 := hq.ne'
  simp (disch := nz) only [P.thermal.i_m_0_i, Qcd.thermal.i_m_0_i, ofR_real, num_val, I_val, add_val, sub_val, mul_val, neg_val, inv_val, div_val, ofR_val, toC_val, energy_val, bose_val, fermi_val, fermi_zero_val, thermal_tlog_val]

theorem thermal_i_0_0_i_val {T : Type} [Num T] [NumDom T] (q : ℝ) (om : T) (p : ℝ) (beta : ℝ) (hq : 0 < q) (ho : (toC om).re ≠ 0) (hp : p ≠ 0) (hb : 0 < beta) :
    P.thermal.i_0_0_i (val q) (val om) (val p) (val beta) = val (Qcd.thermal.i_0_0_i q om p beta) := by
  have hq0 := hq.ne'
  simp (disch := nz) only [P.thermal.i_0_0_i, Qcd.thermal.i_0_0_i, ofR_real, num_val, I_val, add_val, sub_val, mul_val, neg_val, inv_val, div_val, ofR_val, toC_val, energy_val, bose_val, fermi_val, fermi_zero_val, thermal_tlog_zero_mass_val]

theorem thermal_i_m_m_l_i_val {T : Type} [Num T] [NumDom T] (q : ℝ) (om : T) (p : ℝ) (m1 : ℝ) (m2 : ℝ) (beta : ℝ) (hq : 0 < q) (ho : (toC om).re ≠ 0) (hp : p ≠ 0) (hb : 0 < beta) :
    P.thermal.i_m_m_l_i (val q) (val om) (val p) (val m1) (val m2) (val beta) = val (Qcd.thermal.i_m_m_l_i q om p m1 m2 beta) := by
  have hq0 := hq.ne'
  simp (disch := nz) only [P.thermal.i_m_m_l_i, Qcd.thermal.i_m_m_l_i, ofR_real, num_val, I_val, add_val, sub_val, mul_val, neg_val, inv_val, div_val, ofR_val, toC_val, energy_val, bose_val, fermi_val, fermi_zero_val, thermal_tlog_l_val]

theorem thermal_i_m_m_l_i_same_mass_val {T : Type} [Num T] [NumDom T] (q : ℝ) (om : T) (p : ℝ) (m : ℝ) (beta : ℝ) (hq : 0 < q) (ho : (toC om).re ≠ 0) (hp : p ≠ 0) (hb : 0 < beta) :
    P.thermal.i_m_m_l_i_same_mass (val q) (val om) (val p) (val m) (val beta) = val (Qcd.thermal.i_m_m_l_i_same_mass q om p m beta) := by
  have hq0 := hq.ne'
  simp (disch := nz) only [P.thermal.i_m_m_l_i_same_mass, Qcd.thermal.i_m_m_l_i_same_mass, ofR_real, num_val, I_val, add_val, sub_val, mul_val, neg_val, inv_val, div_val, ofR_val, toC_val, energy_val, bose_val, fermi_val, fermi_zero_val, thermal_tlog_l_same_mass_val]

theorem thermal_i_m_0_l_i_val {T : Type} [Num T] [NumDom T] (q : ℝ) (om : T) (p : ℝ) (m : ℝ) (beta : ℝ) (hq : 0 < q) (ho : (toC om).re ≠ 0) (hp : p ≠ 0) (hb : 0 < beta) :
    P.thermal.i_m_0_l_i (val q) (val om) (val p) (val m) (val beta) = val (Qcd.thermal.i_m_0_l_i q om p m beta) := by
  have hq0 := hq.ne'
  simp (disch := nz) only [P.thermal.i_m_0_l_i, Qcd.thermal.i_m_0_l_i, ofR_real, num_val, I_val, add_val, sub_val, mul_val, neg_val, inv_val, div_val, ofR_val, toC_val, energy_val, bose_val, fermi_val, fermi_zero_val, thermal_tlog_l_val]

theorem thermal_i_0_0_l_i_val {T : Type} [Num T] [NumDom T] (q : ℝ) (om : T) (p : ℝ) (beta : ℝ) (hq : 0 < q) (ho : (toC om).re ≠ 0) (hp : p ≠ 0) (hb : 0 < beta) :
    P.thermal.i_0_0_l_i (val q) (val om) (val p) (val beta) = val (Qcd.thermal.i_0_0_l_i q om p beta) := by
  have hq0 := hq.ne'
  simp (disch := nz) only [P.thermal.i_0_0_l_i, Qcd.thermal.i_0_0_l_i, ofR_real, num_val, I_val, add_val, sub_val, mul_val, neg_val, inv_val, div_val, ofR_val, toC_val, energy_val, bose_val, fermi_val, fermi_zero_val, thermal_tlog_l_zero_mass_val]

theorem thermal_i_m_m_t_i_val {T : Type} [Num T] [NumDom T] (q : ℝ) (om : T) (p : ℝ) (m1 : ℝ) (m2 : ℝ) (beta : ℝ) (hq : 0 < q) (ho : (toC om).re ≠ 0) (hp : p ≠ 0) (hb : 0 < beta) :
    P.thermal.i_m_m_t_i (val q) (val om) (val p) (val m1) (val m2) (val beta) = val (Qcd.thermal.i_m_m_t_i q om p m1 m2 beta) := by
  have hq0 := hq.ne'
  simp (disch := nz) only [P.thermal.i_m_m_t_i, Qcd.thermal.i_m_m_t_i, ofR_real, num_val, I_val, add_val, sub_val, mul_val, neg_val, inv_val, div_val, ofR_val, toC_val, energy_val, bose_val, fermi_val, fermi_zero_val, thermal_tlog_t_val]

theorem thermal_i_m_m_t_i_same_mass_val {T : Type} [Num T] [NumDom T] (q : ℝ) (om : T) (p : ℝ) (m : ℝ) (beta : ℝ) (hq : 0 < q) (ho : (toC om).re ≠ 0) (hp : p ≠ 0) (hb : 0 < beta) :
    P.thermal.i_m_m_t_i_same_mass (val q) (val om) (val p) (val m) (val beta) = val (Qcd.thermal.i_m_m_t_i_same_mass q om p m beta) := by
  have hq0 := hq.ne'
  simp (disch := nz) only [P.thermal.i_m_m_t_i_same_mass, Qcd.thermal.i_m_m_t_i_same_mass, ofR_real, num_val, I_val, add_val, sub_val, mul_val, neg_val, inv_val, div_val, ofR_val, toC_val, energy_val, bose_val, fermi_val, fermi_zero_val, thermal_tlog_t_same_mass_val]

theorem thermal_i_m_0_t_i_val {T : Type} [Num T] [NumDom T] (q : ℝ) (om : T) (p : ℝ) (m : ℝ) (beta : ℝ) (hq : 0 < q) (ho : (toC om).re ≠ 0) (hp : p ≠ 0) (hb : 0 < beta) :
    P.thermal.i_m_0_t_i (val q) (val om) (val p) (val m) (val beta) = val (Qcd.thermal.i_m_0_t_i q om p m beta) := by
  have hq0 := hq.ne'
  simp (disch := nz) only [P.thermal.i_m_0_t_i, Qcd.thermal.i_m_0_t_i, ofR_real, num_val, I_val, add_val, sub_val, mul_val, neg_val, inv_val, div_val, ofR_val, toC_val, energy_val, bose_val, fermi_val, fermi_zero_val, thermal_tlog_t_val]

theorem thermal_i_0_0_t_i_val {T : Type} [Num T] [NumDom T] (q : ℝ) (om : T) (p : ℝ) (beta : ℝ) (hq : 0 < q) (ho : (toC om).re ≠ 0) (hp : p ≠ 0) (hb : 0 < beta) :
    P.thermal.i_0_0_t_i (val q) (val om) (val p) (val beta) = val (Qcd.thermal.i_0_0_t_i q om p beta) := by
  have hq0 := hq.ne'
  simp (disch := nz) only [P.thermal.i_0_0_t_i, Qcd.thermal.i_0_0_t_i, ofR_real, num_val, I_val, add_val, sub_val, mul_val, neg_val, inv_val, div_val, ofR_val, toC_val, energy_val, bose_val, fermi_val, fermi_zero_val, thermal_tlog_t_zero_mass_val]

theorem thermal_d_j_m_i_val (q : ℝ) (m : ℝ) (beta : ℝ) (hq : 0 < q) (hb : 0 < beta) :
    P.thermal.d_j_m_i (val q) (val m) (val beta) = val (Qcd.thermal.d_j_m_i q m beta) := by
  have hq0 := hq.ne'
  simp (disch := nz) only [P.thermal.d_j_m_i, Qcd.thermal.d_j_m_i, ofR_real, num_val, I_val, add_val, sub_val, mul_val, neg_val, inv_val, div_val, ofR_val, toC_val, energy_val, bose_val, fermi_val, fermi_zero_val]

theorem thermal_d_j_0_i_val (q : ℝ) (beta : ℝ) (hq : 0 < q) (hb : 0 < beta) :
    P.thermal.d_j_0_i (val q) (val beta) = val (Qcd.thermal.d_j_0_i q beta) := by
  have hq0 := hq.ne'
  simp (disch := nz) only [P.thermal.d_j_0_i, Qcd.thermal.d_j_0_i, ofR_real, num_val, I_val, add_val, sub_val, mul_val, neg_val, inv_val, div_val, ofR_val, toC_val, energy_val, bose_val, fermi_val, fermi_zero_val]

theorem thermal_d2_j_m_i_val (q : ℝ) (m : ℝ) (beta : ℝ) (hq : 0 < q) (hb : 0 < beta) :
    P.thermal.d2_j_m_i (val q) (val m) (val beta) = val (Qcd.thermal.d2_j_m_i q m beta) := by
  have hq0 := hq.ne'
  simp (disch := nz) only [P.thermal.d2_j_m_i, Qcd.thermal.d2_j_m_i, ofR_real, num_val, I_val, add_val, sub_val, mul_val, neg_val, inv_val, div_val, ofR_val, toC_val, energy_val, bose_val, fermi_val, fermi_zero_val]

theorem thermal_d2_j_0_i_val (q : ℝ) (beta : ℝ) (hq : 0 < q) (hb : 0 < beta) :
    P.thermal.d2_j_0_i (val q) (val beta) = val (Qcd.thermal.d2_j_0_i q beta) := by
  have hq0 := hq.ne'
  simp (disch := nz) only [P.thermal.d2_j_0_i, Qcd.thermal.d2_j_0_i, ofR_real, num_val, I_val, add_val, sub_val, mul_val, neg_val, inv_val, div_val, ofR_val, toC_val, energy_val, bose_val, fermi_val, fermi_zero_val]

theorem thermal_d_j_m_l_i_val (q : ℝ) (m : ℝ) (beta : ℝ) (hq : 0 < q) (hb : 0 < beta) :
    P.thermal.d_j_m_l_i (val q) (val m) (val beta) = val (Qcd.thermal.d_j_m_l_i q m beta) := by
  have hq0 := hq.ne'
  simp (disch := nz) only [P.thermal.d_j_m_l_i, Qcd.thermal.d_j_m_l_i, ofR_real, num_val, I_val, add_val, sub_val, mul_val, neg_val, inv_val, div_val, ofR_val, toC_val, energy_val, bose_val, fermi_val, fermi_zero_val]

theorem thermal_d_j_0_l_i_val (q : ℝ) (beta : ℝ) (hq : 0 < q) (hb : 0 < beta) :
    P.thermal.d_j_0_l_i (val q) (val beta) = val (Qcd.thermal.d_j_0_l_i q beta) := by
  have hq0 := hq.ne'
  simp (disch := nz) only [P.thermal.d_j_0_l_i, Qcd.thermal.d_j_0_l_i, ofR_real, num_val, I_val, add_val, sub_val, mul_val, neg_val, inv_val, div_val, ofR_val, toC_val, energy_val, bose_val, fermi_val, fermi_zero_val]

theorem thermal_d2_j_m_l_i_val (q : ℝ) (m : ℝ) (beta : ℝ) (hq : 0 < q) (hb : 0 < beta) :
    P.thermal.d2_j_m_l_i (val q) (val m) (val beta) = val (Qcd.thermal.d2_j_m_l_i q m beta) := by
  have hq0 := hq.ne'
  simp (disch := nz) only [P.thermal.d2_j_m_l_i, Qcd.thermal.d2_j_m_l_i, ofR_real, num_val, I_val, add_val, sub_val, mul_val, neg_val, inv_val, div_val, ofR_val, toC_val, energy_val, bose_val, fermi_val, fermi_zero_val]

theorem thermal_d2_j_0_l_i_val (q : ℝ) (beta : ℝ) (hq : 0 < q) (hb : 0 < beta) :
    P.thermal.d2_j_0_l_i (val q) (val beta) = val (Qcd.thermal.d2_j_0_l_i q beta) := by
  have hq0 := hq.ne'
  simp (disch := nz) only [P.thermal.d2_j_0_l_i, Qcd.thermal.d2_j_0_l_i, ofR_real, num_val, I_val, add_val, sub_val, mul_val, neg_val, inv_val, div_val, ofR_val, toC_val, energy_val, bose_val, fermi_val, fermi_zero_val]

theorem thermal_d_j_m_t_i_val (q : ℝ) (m : ℝ) (beta : ℝ) (hq : 0 < q) (hb : 0 < beta) :
    P.thermal.d_j_m_t_i (val q) (val m) (val beta) = val (Qcd.thermal.d_j_m_t_i q m beta) := by
  have hq0 := hq.ne'
  simp (disch := nz) only [P.thermal.d_j_m_t_i, Qcd.thermal.d_j_m_t_i, ofR_real, num_val, I_val, add_val, sub_val, mul_val, neg_val, inv_val, div_val, ofR_val, toC_val, energy_val, bose_val, fermi_val, fermi_zero_val]

theorem thermal_d_j_0_t_i_val (q : ℝ) (beta : ℝ) (hq : 0 < q) (hb : 0 < beta) :
    P.thermal.d_j_0_t_i (val q) (val beta) = val (Qcd.thermal.d_j_0_t_i q beta) := by
  have hq0 := hq.ne'
  simp (disch := nz) only [P.thermal.d_j_0_t_i, Qcd.thermal.d_j_0_t_i, ofR_real, num_val, I_val, add_val, sub_val, mul_val, neg_val, inv_val, div_val, ofR_val, toC_val, energy_val, bose_val, fermi_val, fermi_zero_val]

theorem thermal_d2_j_m_t_i_val (q : ℝ) (m : ℝ) (beta : ℝ) (hq : 0 < q) (hb : 0 < beta) :
    P.thermal.d2_j_m_t_i (val q) (val m) (val beta) = val (Qcd.thermal.d2_j_m_t_i q m beta) := by
  have hq0 := hq.ne'
  simp (disch := nz) only [P.thermal.d2_j_m_t_i, Qcd.thermal.d2_j_m_t_i, ofR_real, num_val, I_val, add_val, sub_val, mul_val, neg_val, inv_val, div_val, ofR_val, toC_val, energy_val, bose_val, fermi_val, fermi_zero_val]

theorem thermal_d2_j_0_t_i_val (q : ℝ) (beta : ℝ) (hq : 0 < q) (hb : 0 < beta) :
    P.thermal.d2_j_0_t_i (val q) (val beta) = val (Qcd.thermal.d2_j_0_t_i q beta) := by
  have hq0 := hq.ne'
  simp (disch := nz) only [P.thermal.d2_j_0_t_i, Qcd.thermal.d2_j_0_t_i, ofR_real, num_val, I_val, add_val, sub_val, mul_val, neg_val, inv_val, div_val, ofR_val, toC_val, energy_val, bose_val, fermi_val, fermi_zero_val]

theorem thermal_d_i_m_m_i_val {T : Type} [Num T] [NumDom T] (q : ℝ) (om : T) (p : ℝ) (m1 : ℝ) (m2 : ℝ) (beta : ℝ) (hq : 0 < q) (ho : (toC om).re ≠ 0) (hp : p ≠ 0) (hb : 0 < beta) :
    P.thermal.d_i_m_m_i (val q) (val om) (val p) (val m1) (val m2) (val beta) = val (Qcd.thermal.d_i_m_m_i q om p m1 m2 beta) := by
  have hq0 := hq.ne'
  simp (disch := nz) only [P.thermal.d_i_m_m_i, Qcd.thermal.d_i_m_m_i, ofR_real, num_val, I_val, add_val, sub_val, mul_val, neg_val, inv_val, div_val, ofR_val, toC_val, energy_val, bose_val, fermi_val, fermi_zero_val, thermal_r_0_val]

theorem thermal_d_i_m_m_i_same_mass_val {T : Type} [Num T] [NumDom T] (q : ℝ) (om : T) (p : ℝ) (m : ℝ) (beta : ℝ) (hq : 0 < q) (ho : (toC om).re ≠ 0) (hp : p ≠ 0) (hb : 0 < beta) :
    P.thermal.d_i_m_m_i_same_mass (val q) (val om) (val p) (val m) (val beta) = val (Qcd.thermal.d_i_m_m_i_same_mass q om p m beta) := by
  have hq0 := hq.ne'
  simp (disch := nz) only [P.thermal.d_i_m_m_i_same_mass, Qcd.thermal.d_i_m_m_i_same_mass, ofR_real, num_val, I_val, add_val, sub_val, mul_val, neg_val, inv_val, div_val, ofR_val, toC_val, energy_val, bose_val, fermi_val, fermi_zero_val, thermal_r_0_same_mass_val]

theorem thermal_d_i_m_0_i_val {T : Type} [Num T] [NumDom T] (q : ℝ) (om : T) (p : ℝ) (m : ℝ) (beta : ℝ) (hq : 0 < q) (ho : (toC om).re ≠ 0) (hp : p ≠ 0) (hb : 0 < beta) :
    P.thermal.d_i_m_0_i (val q) (val om) (val p) (val m) (val beta) = val (Qcd.thermal.d_i_m_0_i q om p m beta) := by
  have hq0 := hq.ne'
  simp (disch := nz) only [P.thermal.d_i_m_0_i, Qcd.thermal.d_i_m_0_i, ofR_real, num_val, I_val, add_val, sub_val, mul_val, neg_val, inv_val, div_val, ofR_val, toC_val, energy_val, bose_val, fermi_val, fermi_zero_val, thermal_r_0_val]

theorem thermal_d_i_0_0_i_val {T : Type} [Num T] [NumDom T] (q : ℝ) (om : T) (p : ℝ) (beta : ℝ) (hq : 0 < q) (ho : (toC om).re ≠ 0) (hp : p ≠ 0) (hb : 0 < beta) :
    P.thermal.d_i_0_0_i (val q) (val om) (val p) (val beta) = val (Qcd.thermal.d_i_0_0_i q om p beta) := by
  have hq0 := hq.ne'
  simp (disch := nz) only [P.thermal.d_i_0_0_i, Qcd.thermal.d_i_0_0_i, ofR_real, num_val, I_val, add_val, sub_val, mul_val, neg_val, inv_val, div_val, ofR_val, toC_val, energy_val, bose_val, fermi_val, fermi_zero_val, thermal_r_0_same_mass_val]

theorem thermal_d_i_m_m_l_i_val {T : Type} [Num T] [NumDom T] (q : ℝ) (om : T) (p : ℝ) (m1 : ℝ) (m2 : ℝ) (beta : ℝ) (hq : 0 < q) (ho : (toC om).re ≠ 0) (hp : p ≠ 0) (hb : 0 < beta) :
    P.thermal.d_i_m_m_l_i (val q) (val om) (val p) (val m1) (val m2) (val beta) = val (Qcd.thermal.d_i_m_m_l_i q om p m1 m2 beta) := by
  have hq0 := hq.ne'
  simp (disch := nz) only [P.thermal.d_i_m_m_l_i, Qcd.thermal.d_i_m_m_l_i, ofR_real, num_val, I_val, add_val, sub_val, mul_val, neg_val, inv_val, div_val, ofR_val, toC_val, energy_val, bose_val, fermi_val, fermi_zero_val, thermal_r_0_val, thermal_tlog_val]

theorem thermal_d_i_m_m_l_i_same_mass_val {T : Type} [Num T] [NumDom T] (q : ℝ) (om : T) (p : ℝ) (m : ℝ) (beta : ℝ) (hq : 0 < q) (ho : (toC om).re ≠ 0) (hp : p ≠ 0) (hb : 0 < beta) :
    P.thermal.d_i_m_m_l_i_same_mass (val q) (val om) (val p) (val m) (val beta) = val (Qcd.thermal.d_i_m_m_l_i_same_mass q om p m beta) := by
  have hq0 := hq.ne'
  simp (disch := nz) only [P.thermal.d_i_m_m_l_i_same_mass, Qcd.thermal.d_i_m_m_l_i_same_mass, ofR_real, num_val, I_val, add_val, sub_val, mul_val, neg_val, inv_val, div_val, ofR_val, toC_val, energy_val, bose_val, fermi_val, fermi_zero_val, thermal_r_0_same_mass_val]

theorem thermal_d_i_m_0_l_i_val {T : Type} [Num T] [NumDom T] (q : ℝ) (om : T) (p : ℝ) (m : ℝ) (beta : ℝ) (hq : 0 < q) (ho : (toC om).re ≠ 0) (hp : p ≠ 0) (hb : 0 < beta) :
    P.thermal.d_i_m_0_l_i (val q) (val om) (val p) (val m) (val beta) = val (Qcd.thermal.d_i_m_0_l_i q om p m beta) := by
  have hq0 := hq.ne'
  simp (disch := nz) only [P.thermal.d_i_m_0_l_i, Qcd.thermal.d_i_m_0_l_i, ofR_real, num_val, I_val, add_val, sub_val, mul_val, neg_val, inv_val, div_val, ofR_val, toC_val, energy_val, bose_val, fermi_val, fermi_zero_val, thermal_r_0_val, thermal_tlog_val]

theorem thermal_d_i_0_0_l_i_val {T : Type} [Num T] [NumDom T] (q : ℝ) (om : T) (p : ℝ) (beta : ℝ) (hq : 0 < q) (ho : (toC om).re ≠ 0) (hp : p ≠ 0) (hb : 0 < beta) :
    P.thermal.d_i_0_0_l_i (val q) (val om) (val p) (val beta) = val (Qcd.thermal.d_i_0_0_l_i q om p beta) := by
  have hq0 := hq.ne'
  simp (disch := nz) only [P.thermal.d_i_0_0_l_i, Qcd.thermal.d_i_0_0_l_i, ofR_real, num_val, I_val, add_val, sub_val, mul_val, neg_val, inv_val, div_val, ofR_val, toC_val, energy_val, bose_val, fermi_val, fermi_zero_val, thermal_r_0_same_mass_val]

theorem thermal_d_i_m_m_t_i_val {T : Type} [Num T] [NumDom T] (q : ℝ) (om : T) (p : ℝ) (m1 : ℝ) (m2 : ℝ) (beta : ℝ) (hq : 0 < q) (ho : (toC om).re ≠ 0) (hp : p ≠ 0) (hb : 0 < beta) :
    P.thermal.d_i_m_m_t_i (val q) (val om) (val p) (val m1) (val m2) (val beta) = val (Qcd.thermal.d_i_m_m_t_i q om p m1 m2 beta) := by
  have hq0 := hq.ne'
  simp (disch := nz) only [P.thermal.d_i_m_m_t_i, Qcd.thermal.d_i_m_m_t_i, ofR_real, num_val, I_val, add_val, sub_val, mul_val, neg_val, inv_val, div_val, ofR_val, toC_val, energy_val, bose_val, fermi_val, fermi_zero_val, thermal_r_0_val, thermal_tlog_val]

theorem thermal_d_i_m_m_t_i_same_mass_val {T : Type} [Num T] [NumDom T] (q : ℝ) (om : T) (p : ℝ) (m : ℝ) (beta : ℝ) (hq : 0 < q) (ho : (toC om).re ≠ 0) (hp : p ≠ 0) (hb : 0 < beta) :
    P.thermal.d_i_m_m_t_i_same_mass (val q) (val om) (val p) (val m) (val beta) = val (Qcd.thermal.d_i_m_m_t_i_same_mass q om p m beta) := by
  have hq0 := hq.ne'
  simp (disch := nz) only [P.thermal.d_i_m_m_t_i_same_mass, Qcd.thermal.d_i_m_m_t_i_same_mass, ofR_real, num_val, I_val, add_val, sub_val, mul_val, neg_val, inv_val, div_val, ofR_val, toC_val, energy_val, bose_val, fermi_val, fermi_zero_val, thermal_tlog_same_mass_val]

theorem thermal_d_i_m_0_t_i_val {T : Type} [Num T] [NumDom T] (q : ℝ) (om : T) (p : ℝ) (m : ℝ) (beta : ℝ) (hq : 0 < q) (ho : (toC om).re ≠ 0) (hp : p ≠ 0) (hb : 0 < beta) :
    P.thermal.d_i_m_0_t_i (val q) (val om) (val p) (val m) (val beta) = val (Qcd.thermal.d_i_m_0_t_i q om p m beta) := by
  have hq0 := hq.ne'
  simp (disch := nz) only [P.thermal.d_i_m_0_t_i, Qcd.thermal.d_i_m_0_t_i, ofR_real, num_val, I_val, add_val, sub_val, mul_val, neg_val, inv_val, div_val, ofR_val, toC_val, energy_val, bose_val, fermi_val, fermi_zero_val, thermal_r_0_val, thermal_tlog_val]

theorem thermal_d_i_0_0_t_i_val {T : Type} [Num T] [NumDom T] (q : ℝ) (om : T) (p : ℝ) (beta : ℝ) (hq : 0 < q) (ho : (toC om).re ≠ 0) (hp : p ≠ 0) (hb : 0 < beta) :
    P.thermal.d_i_0_0_t_i (val q) (val om) (val p) (val beta) = val (Qcd.thermal.d_i_0_0_t_i q om p beta) := by
  have hq0 := hq.ne'
  simp (disch := nz) only [P.thermal.d_i_0_0_t_i, Qcd.thermal.d_i_0_0_t_i, ofR_real, num_val, I_val, add_val, sub_val, mul_val, neg_val, inv_val, div_val, ofR_val, toC_val, energy_val, bose_val, fermi_val, fermi_zero_val, thermal_tlog_same_mass_val]

theorem thermal_zero_momentum_i_m_m_i_val {T : Type} [Num T] [NumDom T] (q : ℝ) (om : T) (m1 : ℝ) (m2 : ℝ) (beta : ℝ) (hq : 0 < q) (ho : (toC om).re ≠ 0) (hb : 0 < beta) :
    P.thermal.zero_momentum.i_m_m_i (val q) (val om) (val m1) (val m2) (val beta) = val (Qcd.thermal.zero_momentum.i_m_m_i q om m1 m2 beta) := by
  have hq0 := hq.ne'
  simp (disch := nz) only [P.thermal.zero_momentum.i_m_m_i, Qcd.thermal.zero_momentum.i_m_m_i, ofR_real, num_val, I_val, add_val, sub_val, mul_val, neg_val, inv_val, div_val, ofR_val, toC_val, energy_val, bose_val, fermi_val, fermi_zero_val]

theorem thermal_zero_momentum_i_m_m_i_same_mass_val {T : Type} [Num T] [NumDom T] (q : ℝ) (om : T) (m : ℝ) (beta : ℝ) (hq : 0 < q) (ho : (toC om).re ≠ 0) (hb : 0 < beta) :
    P.thermal.zero_momentum.i_m_m_i_same_mass (val q) (val om) (val m) (val beta) = val (Qcd.thermal.zero_momentum.i_m_m_i_same_mass q om m beta) := by
  have hq0 := hq.ne'
  simp (disch := nz) only [P.thermal.zero_momentum.i_m_m_i_same_mass, Qcd.thermal.zero_momentum.i_m_m_i_same_mass, ofR_real, num_val, I_val, add_val, sub_val, mul_val, neg_val, inv_val, div_val, ofR_val, toC_val, energy_val, bose_val, fermi_val, fermi_zero_val]

theorem thermal_zero_momentum_i_m_0_i_val {T : Type} [Num T] [NumDom T] (q : ℝ) (om : T) (m : ℝ) (beta : ℝ) (hq : 0 < q) (ho : (toC om).re ≠ 0) (hb : 0 < beta) :
    P.thermal.zero_momentum.i_m_0_i (val q) (val om) (val m) (val beta) = val (Qcd.thermal.zero_momentum.i_m_0_i q om m beta) := by
  have hq0 := hq.ne'
  simp (disch := nz) only [P.thermal.zero_momentum.i_m_0_i, Qcd.thermal.zero_momentum.i_m_0_i, ofR_real, num_val, I_val, add_val, sub_val, mul_val, neg_val, inv_val, div_val, ofR_val, toC_val, energy_val, bose_val, fermi_val, fermi_zero_val]

theorem thermal_zero_momentum_i_0_0_i_val {T : Type} [Num T] [NumDom T] (q : ℝ) (om : T) (beta : ℝ) (hq : 0 < q) (ho : (toC om).re ≠ 0) (hb : 0 < beta) :
    P.thermal.zero_momentum.i_0_0_i (val q) (val om) (val beta) = val (Qcd.thermal.zero_momentum.i_0_0_i q om beta) := by
  have hq0 := hq.ne'
  simp (disch := nz) only [P.thermal.zero_momentum.i_0_0_i, Qcd.thermal.zero_momentum.i_0_0_i, ofR_real, num_val, I_val, add_val, sub_val, mul_val, neg_val, inv_val, div_val, ofR_val, toC_val, energy_val, bose_val, fermi_val, fermi_zero_val]

theorem thermal_zero_momentum_i_m_m_l_i_val {T : Type} [Num T] [NumDom T] (q : ℝ) (om : T) (m1 : ℝ) (m2 : ℝ) (beta : ℝ) (hq : 0 < q) (ho : (toC om).re ≠ 0) (hb : 0 < beta) :
    P.thermal.zero_momentum.i_m_m_l_i (val q) (val om) (val m1) (val m2) (val beta) = val (Qcd.thermal.zero_momentum.i_m_m_l_i q om m1 m2 beta) := by
  have hq0 := hq.ne'
  simp (disch := nz) only [P.thermal.zero_momentum.i_m_m_l_i, Qcd.thermal.zero_momentum.i_m_m_l_i, ofR_real, num_val, I_val, add_val, sub_val, mul_val, neg_val, inv_val, div_val, ofR_val, toC_val, energy_val, bose_val, fermi_val, fermi_zero_val]

theorem thermal_zero_momentum_i_m_m_l_i_same_mass_val {T : Type} [Num T] [NumDom T] (q : ℝ) (om : T) (m : ℝ) (beta : ℝ) (hq : 0 < q) (ho : (toC om).re ≠ 0) (hb : 0 < beta) :
    P.thermal.zero_momentum.i_m_m_l_i_same_mass (val q) (val om) (val m) (val beta) = val (Qcd.thermal.zero_momentum.i_m_m_l_i_same_mass q om m beta) := by
  have hq0 := hq.ne'
  simp (disch := nz) only [P.thermal.zero_momentum.i_m_m_l_i_same_mass, Qcd.thermal.zero_momentum.i_m_m_l_i_same_mass, ofR_real, num_val, I_val, add_val, sub_val, mul_val, neg_val, inv_val, div_val, ofR_val, toC_val, energy_val, bose_val, fermi_val, fermi_zero_val]

theorem thermal_zero_momentum_i_m_0_l_i_val {T : Type} [Num T] [NumDom T] (q : ℝ) (om : T) (m : ℝ) (beta : ℝ) (hq : 0 < q) (ho : (toC om).re ≠ 0) (hb : 0 < beta) :
    P.thermal.zero_momentum.i_m_0_l_i (val q) (val om) (val m) (val beta) = val (Qcd.thermal.zero_momentum.i_m_0_l_i q om m beta) := by
  have hq0 := hq.ne'
  simp (disch := nz) only [P.thermal.zero_momentum.i_m_0_l_i, Qcd.thermal.zero_momentum.i_m_0_l_i, ofR_real, num_val, I_val, add_val, sub_val, mul_val, neg_val, inv_val, div_val, ofR_val, toC_val, energy_val, bose_val, fermi_val, fermi_zero_val]

theorem thermal_zero_momentum_i_0_0_l_i_val {T : Type} [Num T] [NumDom T] (q : ℝ) (om : T) (beta : ℝ) (hq : 0 < q) (ho : (toC om).re ≠ 0) (hb : 0 < beta) :
    P.thermal.zero_momentum.i_0_0_l_i (val q) (val om) (val beta) = val (Qcd.thermal.zero_momentum.i_0_0_l_i q om beta) := by
  have hq0 := hq.ne'
  simp (disch := nz) only [P.thermal.zero_momentum.i_0_0_l_i, Qcd.thermal.zero_momentum.i_0_0_l_i, ofR_real, num_val, I_val, add_val, sub_val, mul_val, neg_val, inv_val, div_val, ofR_val, toC_val, energy_val, bose_val, fermi_val, fermi_zero_val]

theorem thermal_zero_momentum_i_m_m_t_i_val {T : Type} [Num T] [NumDom T] (q : ℝ) (om : T) (m1 : ℝ) (m2 : ℝ) (beta : ℝ) (hq : 0 < q) (ho : (toC om).re ≠ 0) (hb : 0 < beta) :
    P.thermal.zero_momentum.i_m_m_t_i (val q) (val om) (val m1) (val m2) (val beta) = val (Qcd.thermal.zero_momentum.i_m_m_t_i q om m1 m2 beta) := by
  have hq0 := hq.ne'
  simp (disch := nz) only [P.thermal.zero_momentum.i_m_m_t_i, Qcd.thermal.zero_momentum.i_m_m_t_i, ofR_real, num_val, I_val, add_val, sub_val, mul_val, neg_val, inv_val, div_val, ofR_val, toC_val, energy_val, bose_val, fermi_val, fermi_zero_val, thermal_zero_momentum_i_m_m_l_i_val]

theorem thermal_zero_momentum_i_m_m_t_i_same_mass_val {T : Type} [Num T] [NumDom T] (q : ℝ) (om : T) (m : ℝ) (beta : ℝ) (hq : 0 < q) (ho : (toC om).re ≠ 0) (hb : 0 < beta) :
    P.thermal.zero_momentum.i_m_m_t_i_same_mass (val q) (val om) (val m) (val beta) = val (Qcd.thermal.zero_momentum.i_m_m_t_i_same_mass q om m beta) := by
  have hq0 := hq.ne'
  simp (disch := nz) only [P.thermal.zero_momentum.i_m_m_t_i_same_mass, Qcd.thermal.zero_momentum.i_m_m_t_i_same_mass, ofR_real, num_val, I_val, add_val, sub_val, mul_val, neg_val, inv_val, div_val, ofR_val, toC_val, energy_val, bose_val, fermi_val, fermi_zero_val, thermal_zero_momentum_i_m_m_l_i_same_mass_val]

theorem thermal_zero_momentum_i_m_0_t_i_val {T : Type} [Num T] [NumDom T] (q : ℝ) (om : T) (m : ℝ) (beta : ℝ) (hq : 0 < q) (ho : (toC om).re ≠ 0) (hb : 0 < beta) :
    P.thermal.zero_momentum.i_m_0_t_i (val q) (val om) (val m) (val beta) = val (Qcd.thermal.zero_momentum.i_m_0_t_i q om m beta) := by
  have hq0 := hq.ne'
  simp (disch := nz) only [P.thermal.zero_momentum.i_m_0_t_i, Qcd.thermal.zero_momentum.i_m_0_t_i, ofR_real, num_val, I_val, add_val, sub_val, mul_val, neg_val, inv_val, div_val, ofR_val, toC_val, energy_val, bose_val, fermi_val, fermi_zero_val, thermal_zero_momentum_i_m_0_l_i_val]

theorem thermal_zero_momentum_i_0_0_t_i_val {T : Type} [Num T] [NumDom T] (q : ℝ) (om : T) (beta : ℝ) (hq : 0 < q) (ho : (toC om).re ≠ 0) (hb : 0 < beta) :
    P.thermal.zero_momentum.i_0_0_t_i (val q) (val om) (val beta) = val (Qcd.thermal.zero_momentum.i_0_0_t_i q om beta) := by
  have hq0 := hq.ne'
  simp (disch := nz) only [P.thermal.zero_momentum.i_0_0_t_i, Qcd.thermal.zero_momentum.i_0_0_t_i, ofR_real, num_val, I_val, add_val, sub_val, mul_val, neg_val, inv_val, div_val, ofR_val, toC_val, energy_val, bose_val, fermi_val, fermi_zero_val, thermal_zero_momentum_i_0_0_l_i_val]

theorem thermal_zero_momentum_d_i_m_m_i_val {T : Type} [Num T] [NumDom T] (q : ℝ) (om : T) (m1 : ℝ) (m2 : ℝ) (beta : ℝ) (hq : 0 < q) (ho : (toC om).re ≠ 0) (hb : 0 < beta) :
    P.thermal.zero_momentum.d_i_m_m_i (val q) (val om) (val m1) (val m2) (val beta) = val (Qcd.thermal.zero_momentum.d_i_m_m_i q om m1 m2 beta) := by
  have hq0 := hq.ne'
  simp (disch := nz) only [P.thermal.zero_momentum.d_i_m_m_i, Qcd.thermal.zero_momentum.d_i_m_m_i, ofR_real, num_val, I_val, add_val, sub_val, mul_val, neg_val, inv_val, div_val, ofR_val, toC_val, energy_val, bose_val, fermi_val, fermi_zero_val, thermal_zero_momentum_r_0_val]

theorem thermal_zero_momentum_d_i_m_m_i_same_mass_val {T : Type} [Num T] [NumDom T] (q : ℝ) (om : T) (m : ℝ) (beta : ℝ) (hq : 0 < q) (ho : (toC om).re ≠ 0) (hb : 0 < beta) :
    P.thermal.zero_momentum.d_i_m_m_i_same_mass (val q) (val om) (val m) (val beta) = val (Qcd.thermal.zero_momentum.d_i_m_m_i_same_mass q om m beta) := by
  have hq0 := hq.ne'
  simp (disch := nz) only [P.thermal.zero_momentum.d_i_m_m_i_same_mass, Qcd.thermal.zero_momentum.d_i_m_m_i_same_mass, ofR_real, num_val, I_val, add_val, sub_val, mul_val, neg_val, inv_val, div_val, ofR_val, toC_val, energy_val, bose_val, fermi_val, fermi_zero_val, thermal_zero_momentum_r_0_same_mass_val]

theorem thermal_zero_momentum_d_i_m_0_i_val {T : Type} [Num T] [NumDom T] (q : ℝ) (om : T) (m : ℝ) (beta : ℝ) (hq : 0 < q) (ho : (toC om).re ≠ 0) (hb : 0 < beta) :
    P.thermal.zero_momentum.d_i_m_0_i (val q) (val om) (val m) (val beta) = val (Qcd.thermal.zero_momentum.d_i_m_0_i q om m beta) := by
  have hq0 := hq.ne'
  simp (disch := nz) only [P.thermal.zero_momentum.d_i_m_0_i, Qcd.thermal.zero_momentum.d_i_m_0_i, ofR_real, num_val, I_val, add_val, sub_val, mul_val, neg_val, inv_val, div_val, ofR_val, toC_val, energy_val, bose_val, fermi_val, fermi_zero_val, thermal_zero_momentum_r_0_val]

theorem thermal_zero_momentum_d_i_0_0_i_val {T : Type} [Num T] [NumDom T] (q : ℝ) (om : T) (beta : ℝ) (hq : 0 < q) (ho : (toC om).re ≠ 0) (hb : 0 < beta) :
    P.thermal.zero_momentum.d_i_0_0_i (val q) (val om) (val beta) = val (Qcd.thermal.zero_momentum.d_i_0_0_i q om beta) := by
  have hq0 := hq.ne'
  simp (disch := nz) only [P.thermal.zero_momentum.d_i_0_0_i, Qcd.thermal.zero_momentum.d_i_0_0_i, ofR_real, num_val, I_val, add_val, sub_val, mul_val, neg_val, inv_val, div_val, ofR_val, toC_val, energy_val, bose_val, fermi_val, fermi_zero_val, thermal_zero_momentum_r_0_same_mass_val]

theorem thermal_zero_momentum_d_i_m_m_l_i_val {T : Type} [Num T] [NumDom T] (q : ℝ) (om : T) (m1 : ℝ) (m2 : ℝ) (beta : ℝ) (hq : 0 < q) (ho : (toC om).re ≠ 0) (hb : 0 < beta) :
    P.thermal.zero_momentum.d_i_m_m_l_i (val q) (val om) (val m1) (val m2) (val beta) = val (Qcd.thermal.zero_momentum.d_i_m_m_l_i q om m1 m2 beta) := by
  have hq0 := hq.ne'
  simp (disch := nz) only [P.thermal.zero_momentum.d_i_m_m_l_i, Qcd.thermal.zero_momentum.d_i_m_m_l_i, ofR_real, num_val, I_val, add_val, sub_val, mul_val, neg_val, inv_val, div_val, ofR_val, toC_val, energy_val, bose_val, fermi_val, fermi_zero_val, thermal_zero_momentum_r_0_val]

theorem thermal_zero_momentum_d_i_m_m_l_i_same_mass_val {T : Type} [Num T] [NumDom T] (q : ℝ) (om : T) (m : ℝ) (beta : ℝ) (hq : 0 < q) (ho : (toC om).re ≠ 0) (hb : 0 < beta) :
    P.thermal.zero_momentum.d_i_m_m_l_i_same_mass (val q) (val om) (val m) (val beta) = val (Qcd.thermal.zero_momentum.d_i_m_m_l_i_same_mass q om m beta) := by
  have hq0 := hq.ne'
  simp (disch := nz) only [P.thermal.zero_momentum.d_i_m_m_l_i_same_mass, Qcd.thermal.zero_momentum.d_i_m_m_l_i_same_mass, ofR_real, num_val, I_val, add_val, sub_val, mul_val, neg_val, inv_val, div_val, ofR_val, toC_val, energy_val, bose_val, fermi_val, fermi_zero_val, thermal_zero_momentum_r_0_same_mass_val]

theorem thermal_zero_momentum_d_i_m_0_l_i_val {T : Type} [Num T] [NumDom T] (q : ℝ) (om : T) (m : ℝ) (beta : ℝ) (hq : 0 < q) (ho : (toC om).re ≠ 0) (hb : 0 < beta) :
    P.thermal.zero_momentum.d_i_m_0_l_i (val q) (val om) (val m) (val beta) = val (Qcd.thermal.zero_momentum.d_i_m_0_l_i q om m beta) := by
  have hq0 := hq.ne'
  simp (disch := nz) only [P.thermal.zero_momentum.d_i_m_0_l_i, Qcd.thermal.zero_momentum.d_i_m_0_l_i, ofR_real, num_val, I_val, add_val, sub_val, mul_val, neg_val, inv_val, div_val, ofR_val, toC_val, energy_val, bose_val, fermi_val, fermi_zero_val, thermal_zero_momentum_r_0_val]

theorem thermal_zero_momentum_d_i_0_0_l_i_val {T : Type} [Num T] [NumDom T] (q : ℝ) (om : T) (beta : ℝ) (hq : 0 < q) (ho : (toC om).re ≠ 0) (hb : 0 < beta) :
    P.thermal.zero_momentum.d_i_0_0_l_i (val q) (val om) (val beta) = val (Qcd.thermal.zero_momentum.d_i_0_0_l_i q om beta) := by
  have hq0 := hq.ne'
  simp (disch := nz) only [P.thermal.zero_momentum.d_i_0_0_l_i, Qcd.thermal.zero_momentum.d_i_0_0_l_i, ofR_real, num_val, I_val, add_val, sub_val, mul_val, neg_val, inv_val, div_val, ofR_val, toC_val, energy_val, bose_val, fermi_val, fermi_zero_val, thermal_zero_momentum_r_0_same_mass_val]

theorem thermal_zero_momentum_d_i_m_m_t_i_val {T : Type} [Num T] [NumDom T] (q : ℝ) (om : T) (m1 : ℝ) (m2 : ℝ) (beta : ℝ) (hq : 0 < q) (ho : (toC om).re ≠ 0) (hb : 0 < beta) :
    P.thermal.zero_momentum.d_i_m_m_t_i (val q) (val om) (val m1) (val m2) (val beta) = val (Qcd.thermal.zero_momentum.d_i_m_m_t_i q om m1 m2 beta) := by
  have hq0 := hq.ne'
  simp (disch := nz) only [P.thermal.zero_momentum.d_i_m_m_t_i, Qcd.thermal.zero_momentum.d_i_m_m_t_i, ofR_real, num_val, I_val, add_val, sub_val, mul_val, neg_val, inv_val, div_val, ofR_val, toC_val, energy_val, bose_val, fermi_val, fermi_zero_val, thermal_zero_momentum_d_i_m_m_l_i_val]

theorem thermal_zero_momentum_d_i_m_m_t_i_same_mass_val {T : Type} [Num T] [NumDom T] (q : ℝ) (om : T) (m : ℝ) (beta : ℝ) (hq : 0 < q) (ho : (toC om).re ≠ 0) (hb : 0 < beta) :
    P.thermal.zero_momentum.d_i_m_m_t_i_same_mass (val q) (val om) (val m) (val beta) = val (Qcd.thermal.zero_momentum.d_i_m_m_t_i_same_mass q om m beta) := by
  have hq0 := hq.ne'
  simp (disch := nz) only [P.thermal.zero_momentum.d_i_m_m_t_i_same_mass, Qcd.thermal.zero_momentum.d_i_m_m_t_i_same_mass, ofR_real, num_val, I_val, add_val, sub_val, mul_val, neg_val, inv_val, div_val, ofR_val, toC_val, energy_val, bose_val, fermi_val, fermi_zero_val, thermal_zero_momentum_d_i_m_m_l_i_same_mass_val]

theorem thermal_zero_momentum_d_i_m_0_t_i_val {T : Type} [Num T] [NumDom T] (q : ℝ) (om : T) (m : ℝ) (beta : ℝ) (hq : 0 < q) (ho : (toC om).re ≠ 0) (hb : 0 < beta) :
    P.thermal.zero_momentum.d_i_m_0_t_i (val q) (val om) (val m) (val beta) = val (Qcd.thermal.zero_momentum.d_i_m_0_t_i q om m beta) := by
  have hq0 := hq.ne'
  simp (disch := nz) only [P.thermal.zero_momentum.d_i_m_0_t_i, Qcd.thermal.zero_momentum.d_i_m_0_t_i, ofR_real, num_val, I_val, add_val, sub_val, mul_val, neg_val, inv_val, div_val, ofR_val, toC_val, energy_val, bose_val, fermi_val, fermi_zero_val, thermal_zero_momentum_d_i_m_0_l_i_val]

theorem thermal_zero_momentum_d_i_0_0_t_i_val {T : Type} [Num T] [NumDom T] (q : ℝ) (om : T) (beta : ℝ) (hq : 0 < q) (ho : (toC om).re ≠ 0) (hb : 0 < beta) :
    P.thermal.zero_momentum.d_i_0_0_t_i (val q) (val om) (val beta) = val (Qcd.thermal.zero_momentum.d_i_0_0_t_i q om beta) := by
  have hq0 := hq.ne'
  simp (disch := nz) only [P.thermal.zero_momentum.d_i_0_0_t_i, Qcd.thermal.zero_momentum.d_i_0_0_t_i, ofR_real, num_val, I_val, add_val, sub_val, mul_val, neg_val, inv_val, div_val, ofR_val, toC_val, energy_val, bose_val, fermi_val, fermi_zero_val, thermal_zero_momentum_d_i_0_0_l_i_val]

theorem thermal_zero_matsubara_tlog_zero_mass_val (q : ℝ) (p : ℝ) (hq : 0 < q) (hp : 0 < p) (h2 : 2 * -q + p ≠ 0) :
    P.thermal.zero_matsubara.tlog_zero_mass (val q) (val p) = val (Qcd.thermal.zero_matsubara.tlog_zero_mass q p) := by
  have hq0 := hq.ne'
  have hp0 := hp.ne'
  have h3 : 2 * q + p ≠ 0 := by positivity
  simp (disch := nz) only [P.thermal.zero_matsubara.tlog_zero_mass, Qcd.thermal.zero_matsubara.tlog_zero_mass, ofR_real, num_val, I_val, add_val, sub_val, mul_val, neg_val, inv_val, div_val, ofR_val, toC_val, energy_val, bose_val, fermi_val, fermi_zero_val, thermal_zero_matsubara_tlog_same_mass_val]

theorem thermal_zero_matsubara_tlog_t_val {T4 : Type} [Num T4] [NumDom T4] (q : ℝ) (p : ℝ) (delta : T4) (hq : 0 < q) (hp : 0 < p) (h1 : thermal.zero_matsubara.r_0 p delta + (ofR (q * 2 * p) : T4) ≠ 0) (h2 : thermal.zero_matsubara.r_0 p delta - (ofR (q * 2 * p) : T4) ≠ 0) :
    P.thermal.zero_matsubara.tlog_t (val q) (val p) (val delta) = val (Qcd.thermal.zero_matsubara.tlog_t q p delta) := by
  have hq0 := hq.ne'
  have hp0 := hp.ne'
  simp (disch := nz) only [P.thermal.zero_matsubara.tlog_t, Qcd.thermal.zero_matsubara.tlog_t, ofR_real, num_val, I_val, add_val, sub_val, mul_val, neg_val, inv_val, div_val, ofR_val, toC_val, energy_val, bose_val, fermi_val, fermi_zero_val, thermal_zero_matsubara_r_0_val, thermal_zero_matsubara_tlog_val]

theorem thermal_zero_matsubara_tlog_t_same_mass_val (q : ℝ) (p : ℝ) (hq : 0 < q) (hp : 0 < p) (h2 : 2 * -q + p ≠ 0) :
    P.thermal.zero_matsubara.tlog_t_same_mass (val q) (val p) = val (Qcd.thermal.zero_matsubara.tlog_t_same_mass q p) := by
  have hq0 := hq.ne'
  have hp0 := hp.ne'
  have h3 : 2 * q + p ≠ 0 := by positivity
  simp (disch := nz) only [P.thermal.zero_matsubara.tlog_t_same_mass, Qcd.thermal.zero_matsubara.tlog_t_same_mass, ofR_real, num_val, I_val, add_val, sub_val, mul_val, neg_val, inv_val, div_val, ofR_val, toC_val, energy_val, bose_val, fermi_val, fermi_zero_val, thermal_zero_matsubara_tlog_same_mass_val]

theorem thermal_zero_matsubara_tlog_t_zero_mass_val (q : ℝ) (p : ℝ) (hq : 0 < q) (hp : 0 < p) (h2 : 2 * -q + p ≠ 0) :
    P.thermal.zero_matsubara.tlog_t_zero_mass (val q) (val p) = val (Qcd.thermal.zero_matsubara.tlog_t_zero_mass q p) := by
  have hq0 := hq.ne'
  have hp0 := hp.ne'
  have h3 : 2 * q + p ≠ 0 := by positivity
  simp (disch := nz) only [P.thermal.zero_matsubara.tlog_t_zero_mass, Qcd.thermal.zero_matsubara.tlog_t_zero_mass, ofR_real, num_val, I_val, add_val, sub_val, mul_val, neg_val, inv_val, div_val, ofR_val, toC_val, energy_val, bose_val, fermi_val, fermi_zero_val, thermal_zero_matsubara_tlog_t_same_mass_val]

theorem thermal_zero_matsubara_i_m_m_i_val (q : ℝ) (p : ℝ) (m1 : ℝ) (m2 : ℝ) (beta : ℝ) (hq : 0 < q) (hp : 0 < p) (hb : 0 < beta) (hR : (p * p + (m2 * m2 - m1 * m1)) ^ 2 ≠ (2 * q * p) ^ 2) (hR2 : (p * p - (m2 * m2 - m1 * m1)) ^ 2 ≠ (2 * q * p) ^ 2) :
    P.thermal.zero_matsubara.i_m_m_i (val q) (val p) (val m1) (val m2) (val beta) = val (Qcd.thermal.zero_matsubara.i_m_m_i q p m1 m2 beta) := by
  have hq0 := hq.ne'
  have hp0 := hp.ne'
  simp (disch := nz) only [P.thermal.zero_matsubara.i_m_m_i, Qcd.thermal.zero_matsubara.i_m_m_i, ofR_real, num_val, I_val, add_val, sub_val, mul_val, neg_val, inv_val, div_val, ofR_val, toC_val, energy_val, bose_val, fermi_val, fermi_zero_val, thermal_zero_matsubara_tlog_val]

theorem thermal_zero_matsubara_i_m_m_i_same_mass_val (q : ℝ) (p : ℝ) (m : ℝ) (beta : ℝ) (hq : 0 < q) (hp : 0 < p) (hb : 0 < beta) (h2 : 2 * -q + p ≠ 0) :
    P.thermal.zero_matsubara.i_m_m_i_same_mass (val q) (val p) (val m) (val beta) = val (Qcd.thermal.zero_matsubara.i_m_m_i_same_mass q p m beta) := by
  have hq0 := hq.ne'
  have hp0 := hp.ne'
  have h3 : 2 * q + p ≠ 0 := by positivity
  simp (disch := nz) only [P.thermal.zero_matsubara.i_m_m_i_same_mass, Qcd.thermal.zero_matsubara.i_m_m_i_same_mass, ofR_real, num_val, I_val, add_val, sub_val, mul_val, neg_val, inv_val, div_val, ofR_val, toC_val, energy_val, bose_val, fermi_val, fermi_zero_val, thermal_zero_matsubara_tlog_same_mass_val]

theorem thermal_zero_matsubara_i_m_0_i_val (q : ℝ) (p : ℝ) (m : ℝ) (beta : ℝ) (hq : 0 < q) (hp : 0 < p) (hb : 0 < beta) (hR : (p * p - m * m) ^ 2 ≠ (2 * q * p) ^ 2) (hR2 : (p * p + m * m) ^ 2 ≠ (2 * q * p) ^ 2) :
    P.thermal.zero_matsubara.i_m_0_i (val q) (val p) (val m) (val beta) = val (Qcd.thermal.zero_matsubara.i_m_0_i q p m beta) := by
  have hq0 := hq.ne'
  have hp0 := hp.ne'
  simp (disch := nz) only [P.thermal.zero_matsubara.i_m_0_i, Qcd.thermal.zero_matsubara.i_m_0_i, ofR_real, num_val, I_val, add_val, sub_val, mul_val, neg_val, inv_val, div_val, ofR_val, toC_val, energy_val, bose_val, fermi_val, fermi_zero_val, thermal_zero_matsubara_tlog_val]

theorem thermal_zero_matsubara_i_0_0_i_val (q : ℝ) (p : ℝ) (beta : ℝ) (hq : 0 < q) (hp : 0 < p) (hb : 0 < beta) (h2 : 2 * -q + p ≠ 0) :
    P.thermal.zero_matsubara.i_0_0_i (val q) (val p) (val beta) = val (Qcd.thermal.zero_matsubara.i_0_0_i q p beta) := by
  have hq0 := hq.ne'
  have hp0 := hp.ne'
  have h3 : 2 * q + p ≠ 0 := by positivity
  simp (disch := nz) only [P.thermal.zero_matsubara.i_0_0_i, Qcd.thermal.zero_matsubara.i_0_0_i, ofR_real, num_val, I_val, add_val, sub_val, mul_val, neg_val, inv_val, div_val, ofR_val, toC_val, energy_val, bose_val, fermi_val, fermi_zero_val, thermal_zero_matsubara_tlog_zero_mass_val]

theorem thermal_zero_matsubara_i_m_m_l_i_val (q : ℝ) (p : ℝ) (m1 : ℝ) (m2 : ℝ) (beta : ℝ) (hq : 0 < q) (hp : 0 < p) (hb : 0 < beta) (hR : (p * p + (m2 * m2 - m1 * m1)) ^ 2 ≠ (2 * q * p) ^ 2) (hR2 : (p * p - (m2 * m2 - m1 * m1)) ^ 2 ≠ (2 * q * p) ^ 2) :
    P.thermal.zero_matsubara.i_m_m_l_i (val q) (val p) (val m1) (val m2) (val beta) = val (Qcd.thermal.zero_matsubara.i_m_m_l_i q p m1 m2 beta) := by
  have hq0 := hq.ne'
  have hp0 := hp.ne'
  simp (disch := nz) only [P.thermal.zero_matsubara.i_m_m_l_i, Qcd.thermal.zero_matsubara.i_m_m_l_i, ofR_real, num_val, I_val, add_val, sub_val, mul_val, neg_val, inv_val, div_val, ofR_val, toC_val, energy_val, bose_val, fermi_val, fermi_zero_val, thermal_zero_matsubara_tlog_val]

theorem thermal_zero_matsubara_i_m_m_l_i_same_mass_val (q : ℝ) (p : ℝ) (m : ℝ) (beta : ℝ) (hq : 0 < q) (hp : 0 < p) (hb : 0 < beta) (h2 : 2 * -q + p ≠ 0) :
    P.thermal.zero_matsubara.i_m_m_l_i_same_mass (val q) (val p) (val m) (val beta) = val (Qcd.thermal.zero_matsubara.i_m_m_l_i_same_mass q p m beta) := by
  have hq0 := hq.ne'
  have hp0 := hp.ne'
  have h3 : 2 * q + p ≠ 0 := by positivity
  simp (disch := nz) only [P.thermal.zero_matsubara.i_m_m_l_i_same_mass, Qcd.thermal.zero_matsubara.i_m_m_l_i_same_mass, ofR_real, num_val, I_val, add_val, sub_val, mul_val, neg_val, inv_val, div_val, ofR_val, toC_val, energy_val, bose_val, fermi_val, fermi_zero_val, thermal_zero_matsubara_tlog_same_mass_val]

theorem thermal_zero_matsubara_i_m_0_l_i_val (q : ℝ) (p : ℝ) (m : ℝ) (beta : ℝ) (hq : 0 < q) (hp : 0 < p) (hb : 0 < beta) (hR : (p * p - m * m) ^ 2 ≠ (2 * q * p) ^ 2) (hR2 : (p * p + m * m) ^ 2 ≠ (2 * q * p) ^ 2) :
    P.thermal.zero_matsubara.i_m_0_l_i (val q) (val p) (val m) (val beta) = val (Qcd.thermal.zero_matsubara.i_m_0_l_i q p m beta) := by
  have hq0 := hq.ne'
  have hp0 := hp.ne'
  simp (disch := nz) only [P.thermal.zero_matsubara.i_m_0_l_i, Qcd.thermal.zero_matsubara.i_m_0_l_i, ofR_real, num_val, I_val, add_val, sub_val, mul_val, neg_val, inv_val, div_val, ofR_val, toC_val, energy_val, bose_val, fermi_val, fermi_zero_val, thermal_zero_matsubara_tlog_val]

theorem thermal_zero_matsubara_i_0_0_l_i_val (q : ℝ) (p : ℝ) (beta : ℝ) (hq : 0 < q) (hp : 0 < p) (hb : 0 < beta) (h2 : 2 * -q + p ≠ 0) :
    P.thermal.zero_matsubara.i_0_0_l_i (val q) (val p) (val beta) = val (Qcd.thermal.zero_matsubara.i_0_0_l_i q p beta) := by
  have hq0 := hq.ne'
  have hp0 := hp.ne'
  have h3 : 2 * q + p ≠ 0 := by positivity
  simp (disch := nz) only [P.thermal.zero_matsubara.i_0_0_l_i, Qcd.thermal.zero_matsubara.i_0_0_l_i, ofR_real, num_val, I_val, add_val, sub_val, mul_val, neg_val, inv_val, div_val, ofR_val, toC_val, energy_val, bose_val, fermi_val, fermi_zero_val, thermal_zero_matsubara_tlog_same_mass_val]

theorem thermal_zero_matsubara_i_m_m_t_i_val (q : ℝ) (p : ℝ) (m1 : ℝ) (m2 : ℝ) (beta : ℝ) (hq : 0 < q) (hp : 0 < p) (hb : 0 < beta) (hR : (p * p + (m2 * m2 - m1 * m1)) ^ 2 ≠ (2 * q * p) ^ 2) (hR2 : (p * p - (m2 * m2 - m1 * m1)) ^ 2 ≠ (2 * q * p) ^ 2) :
    P.thermal.zero_matsubara.i_m_m_t_i (val q) (val p) (val m1) (val m2) (val beta) = val (Qcd.thermal.zero_matsubara.i_m_m_t_i q p m1 m2 beta) := by
  have hq0 := hq.ne'
  have hp0 := hp.ne'
  simp (disch := nz) only [P.thermal.zero_matsubara.i_m_m_t_i, Qcd.thermal.zero_matsubara.i_m_m_t_i, ofR_real, num_val, I_val, add_val, sub_val, mul_val, neg_val, inv_val, div_val, ofR_val, toC_val, energy_val, bose_val, fermi_val, fermi_zero_val, thermal_zero_matsubara_tlog_t_val]

theorem thermal_zero_matsubara_i_m_m_t_i_same_mass_val (q : ℝ) (p : ℝ) (m : ℝ) (beta : ℝ) (hq : 0 < q) (hp : 0 < p) (hb : 0 < beta) (h2 : 2 * -q + p ≠ 0) :
    P.thermal.zero_matsubara.i_m_m_t_i_same_mass (val q) (val p) (val m) (val beta) = val (Qcd.thermal.zero_matsubara.i_m_m_t_i_same_mass q p m beta) := by
  have hq0 := hq.ne'
  have hp0 := hp.ne'
  have h3 : 2 * q + p ≠ 0 := by positivity
  simp (disch := nz) only [P.thermal.zero_matsubara.i_m_m_t_i_same_mass, Qcd.thermal.zero_matsubara.i_m_m_t_i_same_mass, ofR_real, num_val, I_val, add_val, sub_val, mul_val, neg_val, inv_val, div_val, ofR_val, toC_val, energy_val, bose_val, fermi_val, fermi_zero_val, thermal_zero_matsubara_tlog_t_same_mass_val]

theorem thermal_zero_matsubara_i_m_0_t_i_val (q : ℝ) (p : ℝ) (m : ℝ) (beta : ℝ) (hq : 0 < q) (hp : 0 < p) (hb : 0 < beta) (hR : (p * p - m * m) ^ 2 ≠ (2 * q * p) ^ 2) (hR2 : (p * p + m * m) ^ 2 ≠ (2 * q * p) ^ 2) :
    P.thermal.zero_matsubara.i_m_0_t_i (val q) (val p) (val m) (val beta) = val (Qcd.thermal.zero_matsubara.i_m_0_t_i q p m beta) := by
  have hq0 := hq.ne'
  have hp0 := hp.ne'
  simp (disch := nz) only [P.thermal.zero_matsubara.i_m_0_t_i, Qcd.thermal.zero_matsubara.i_m_0_t_i, ofR_real, num_val, I_val, add_val, sub_val, mul_val, neg_val, inv_val, div_val, ofR_val, toC_val, energy_val, bose_val, fermi_val, fermi_zero_val, thermal_zero_matsubara_tlog_t_val]

theorem thermal_zero_matsubara_i_0_0_t_i_val (q : ℝ) (p : ℝ) (beta : ℝ) (hq : 0 < q) (hp : 0 < p) (hb : 0 < beta) (h2 : 2 * -q + p ≠ 0) :
    P.thermal.zero_matsubara.i_0_0_t_i (val q) (val p) (val beta) = val (Qcd.thermal.zero_matsubara.i_0_0_t_i q p beta) := by
  have hq0 := hq.ne'
  have hp0 := hp.ne'
  have h3 : 2 * q + p ≠ 0 := by positivity
  simp (disch := nz) only [P.thermal.zero_matsubara.i_0_0_t_i, Qcd.thermal.zero_matsubara.i_0_0_t_i, ofR_real, num_val, I_val, add_val, sub_val, mul_val, neg_val, inv_val, div_val, ofR_val, toC_val, energy_val, bose_val, fermi_val, fermi_zero_val, thermal_zero_matsubara_tlog_t_zero_mass_val]

theorem thermal_zero_matsubara_d_i_m_m_i_val (q : ℝ) (p : ℝ) (m1 : ℝ) (m2 : ℝ) (beta : ℝ) (hq : 0 < q) (hp : 0 < p) (hb : 0 < beta) (hR : (p * p + (m2 * m2 - m1 * m1)) ^ 2 ≠ (2 * q * p) ^ 2) (hR2 : (p * p - (m2 * m2 - m1 * m1)) ^ 2 ≠ (2 * q * p) ^ 2) :
    P.thermal.zero_matsubara.d_i_m_m_i (val q) (val p) (val m1) (val m2) (val beta) = val (Qcd.thermal.zero_matsubara.d_i_m_m_i q p m1 m2 beta) := by
  have hq0 := hq.ne'
  have hp0 := hp.ne'
  simp (disch := nz) only [P.thermal.zero_matsubara.d_i_m_m_i, Qcd.thermal.zero_matsubara.d_i_m_m_i, ofR_real, num_val, I_val, add_val, sub_val, mul_val, neg_val, inv_val, div_val, ofR_val, toC_val, energy_val, bose_val, fermi_val, fermi_zero_val, thermal_zero_matsubara_r_0_val]

theorem thermal_zero_matsubara_d_i_m_m_i_same_mass_val (q : ℝ) (p : ℝ) (m : ℝ) (beta : ℝ) (hq : 0 < q) (hp : 0 < p) (hb : 0 < beta) (h2 : 2 * -q + p ≠ 0) :
    P.thermal.zero_matsubara.d_i_m_m_i_same_mass (val q) (val p) (val m) (val beta) = val (Qcd.thermal.zero_matsubara.d_i_m_m_i_same_mass q p m beta) := by
  have hq0 := hq.ne'
  have hp0 := hp.ne'
  have h3 : 2 * q + p ≠ 0 := by positivity
  simp (disch := nz) only [P.thermal.zero_matsubara.d_i_m_m_i_same_mass, Qcd.thermal.zero_matsubara.d_i_m_m_i_same_mass, ofR_real, num_val, I_val, add_val, sub_val, mul_val, neg_val, inv_val, div_val, ofR_val, toC_val, energy_val, bose_val, fermi_val, fermi_zero_val]

theorem thermal_zero_matsubara_d_i_m_0_i_val (q : ℝ) (p : ℝ) (m : ℝ) (beta : ℝ) (hq : 0 < q) (hp : 0 < p) (hb : 0 < beta) (hR : (p * p - m * m) ^ 2 ≠ (2 * q * p) ^ 2) (hR2 : (p * p + m * m) ^ 2 ≠ (2 * q * p) ^ 2) :
    P.thermal.zero_matsubara.d_i_m_0_i (val q) (val p) (val m) (val beta) = val (Qcd.thermal.zero_matsubara.d_i_m_0_i q p m beta) := by
  have hq0 := hq.ne'
  have hp0 := hp.ne'
  simp (disch := nz) only [P.thermal.zero_matsubara.d_i_m_0_i, Qcd.thermal.zero_matsubara.d_i_m_0_i, ofR_real, num_val, I_val, add_val, sub_val, mul_val, neg_val, inv_val, div_val, ofR_val, toC_val, energy_val, bose_val, fermi_val, fermi_zero_val, thermal_zero_matsubara_r_0_val]

theorem thermal_zero_matsubara_d_i_0_0_i_val (q : ℝ) (p : ℝ) (beta : ℝ) (hq : 0 < q) (hp : 0 < p) (hb : 0 < beta) (h2 : 2 * -q + p ≠ 0) :
    P.thermal.zero_matsubara.d_i_0_0_i (val q) (val p) (val beta) = val (Qcd.thermal.zero_matsubara.d_i_0_0_i q p beta) := by
  have hq0 := hq.ne'
  have hp0 := hp.ne'
  have h3 : 2 * q + p ≠ 0 := by positivity
  simp (disch := nz) only [P.thermal.zero_matsubara.d_i_0_0_i, Qcd.thermal.zero_matsubara.d_i_0_0_i, ofR_real, num_val, I_val, add_val, sub_val, mul_val, neg_val, inv_val, div_val, ofR_val, toC_val, energy_val, bose_val, fermi_val, fermi_zero_val]

theorem thermal_zero_matsubara_d_i_m_m_l_i_val (q : ℝ) (p : ℝ) (m1 : ℝ) (m2 : ℝ) (beta : ℝ) (hq : 0 < q) (hp : 0 < p) (hb : 0 < beta) (hR : (p * p + (m2 * m2 - m1 * m1)) ^ 2 ≠ (2 * q * p) ^ 2) (hR2 : (p * p - (m2 * m2 - m1 * m1)) ^ 2 ≠ (2 * q * p) ^ 2) :
    P.thermal.zero_matsubara.d_i_m_m_l_i (val q) (val p) (val m1) (val m2) (val beta) = val (Qcd.thermal.zero_matsubara.d_i_m_m_l_i q p m1 m2 beta) := by
  have hq0 := hq.ne'
  have hp0 := hp.ne'
  simp (disch := nz) only [P.thermal.zero_matsubara.d_i_m_m_l_i, Qcd.thermal.zero_matsubara.d_i_m_m_l_i, ofR_real, num_val, I_val, add_val, sub_val, mul_val, neg_val, inv_val, div_val, ofR_val, toC_val, energy_val, bose_val, fermi_val, fermi_zero_val, thermal_zero_matsubara_r_0_val]

theorem thermal_zero_matsubara_d_i_m_m_l_i_same_mass_val (q : ℝ) (p : ℝ) (m : ℝ) (beta : ℝ) (hq : 0 < q) (hp : 0 < p) (hb : 0 < beta) (h2 : 2 * -q + p ≠ 0) :
    P.thermal.zero_matsubara.d_i_m_m_l_i_same_mass (val q) (val p) (val m) (val beta) = val (Qcd.thermal.zero_matsubara.d_i_m_m_l_i_same_mass q p m beta) := by
  have hq0 := hq.ne'
  have hp0 := hp.ne'
  have h3 : 2 * q + p ≠ 0 := by positivity
  simp (disch := nz) only [P.thermal.zero_matsubara.d_i_m_m_l_i_same_mass, Qcd.thermal.zero_matsubara.d_i_m_m_l_i_same_mass, ofR_real, num_val, I_val, add_val, sub_val, mul_val, neg_val, inv_val, div_val, ofR_val, toC_val, energy_val, bose_val, fermi_val, fermi_zero_val]

theorem thermal_zero_matsubara_d_i_m_0_l_i_val (q : ℝ) (p : ℝ) (m : ℝ) (beta : ℝ) (hq : 0 < q) (hp : 0 < p) (hb : 0 < beta) (hR : (p * p - m * m) ^ 2 ≠ (2 * q * p) ^ 2) (hR2 : (p * p + m * m) ^ 2 ≠ (2 * q * p) ^ 2) :
    P.thermal.zero_matsubara.d_i_m_0_l_i (val q) (val p) (val m) (val beta) = val (Qcd.thermal.zero_matsubara.d_i_m_0_l_i q p m beta) := by
  have hq0 := hq.ne'
  have hp0 := hp.ne'
  simp (disch := nz) only [P.thermal.zero_matsubara.d_i_m_0_l_i, Qcd.thermal.zero_matsubara.d_i_m_0_l_i, ofR_real, num_val, I_val, add_val, sub_val, mul_val, neg_val, inv_val, div_val, ofR_val, toC_val, energy_val, bose_val, fermi_val, fermi_zero_val, thermal_zero_matsubara_r_0_val]

theorem thermal_zero_matsubara_d_i_0_0_l_i_val (q : ℝ) (p : ℝ) (beta : ℝ) (hq : 0 < q) (hp : 0 < p) (hb : 0 < beta) (h2 : 2 * -q + p ≠ 0) :
    P.thermal.zero_matsubara.d_i_0_0_l_i (val q) (val p) (val beta) = val (Qcd.thermal.zero_matsubara.d_i_0_0_l_i q p beta) := by
  have hq0 := hq.ne'
  have hp0 := hp.ne'
  have h3 : 2 * q + p ≠ 0 := by positivity
  simp (disch := nz) only [P.thermal.zero_matsubara.d_i_0_0_l_i, Qcd.thermal.zero_matsubara.d_i_0_0_l_i, ofR_real, num_val, I_val, add_val, sub_val, mul_val, neg_val, inv_val, div_val, ofR_val, toC_val, energy_val, bose_val, fermi_val, fermi_zero_val]

theorem thermal_zero_matsubara_d_i_m_m_t_i_val (q : ℝ) (p : ℝ) (m1 : ℝ) (m2 : ℝ) (beta : ℝ) (hq : 0 < q) (hp : 0 < p) (hb : 0 < beta) (hR : (p * p + (m2 * m2 - m1 * m1)) ^ 2 ≠ (2 * q * p) ^ 2) (hR2 : (p * p - (m2 * m2 - m1 * m1)) ^ 2 ≠ (2 * q * p) ^ 2) :
    P.thermal.zero_matsubara.d_i_m_m_t_i (val q) (val p) (val m1) (val m2) (val beta) = val (Qcd.thermal.zero_matsubara.d_i_m_m_t_i q p m1 m2 beta) := by
  have hq0 := hq.ne'
  have hp0 := hp.ne'
  simp (disch := nz) only [P.thermal.zero_matsubara.d_i_m_m_t_i, Qcd.thermal.zero_matsubara.d_i_m_m_t_i, ofR_real, num_val, I_val, add_val, sub_val, mul_val, neg_val, inv_val, div_val, ofR_val, toC_val, energy_val, bose_val, fermi_val, fermi_zero_val, thermal_zero_matsubara_r_0_val, thermal_zero_matsubara_tlog_val]

theorem thermal_zero_matsubara_d_i_m_m_t_i_same_mass_val (q : ℝ) (p : ℝ) (m : ℝ) (beta : ℝ) (hq : 0 < q) (hp : 0 < p) (hb : 0 < beta) (h2 : 2 * -q + p ≠ 0) :
    P.thermal.zero_matsubara.d_i_m_m_t_i_same_mass (val q) (val p) (val m) (val beta) = val (Qcd.thermal.zero_matsubara.d_i_m_m_t_i_same_mass q p m beta) := by
  have hq0 := hq.ne'
  have hp0 := hp.ne'
  have h3 : 2 * q + p ≠ 0 := by positivity
  simp (disch := nz) only [P.thermal.zero_matsubara.d_i_m_m_t_i_same_mass, Qcd.thermal.zero_matsubara.d_i_m_m_t_i_same_mass, ofR_real, num_val, I_val, add_val, sub_val, mul_val, neg_val, inv_val, div_val, ofR_val, toC_val, energy_val, bose_val, fermi_val, fermi_zero_val, thermal_zero_matsubara_tlog_same_mass_val]

theorem thermal_zero_matsubara_d_i_m_0_t_i_val (q : ℝ) (p : ℝ) (m : ℝ) (beta : ℝ) (hq : 0 < q) (hp : 0 < p) (hb : 0 < beta) (hR : (p * p - m * m) ^ 2 ≠ (2 * q * p) ^ 2) (hR2 : (p * p + m * m) ^ 2 ≠ (2 * q * p) ^ 2) :
    P.thermal.zero_matsubara.d_i_m_0_t_i (val q) (val p) (val m) (val beta) = val (Qcd.thermal.zero_matsubara.d_i_m_0_t_i q p m beta) := by
  have hq0 := hq.ne'
  have hp0 := hp.ne'
  simp (disch := nz) only [P.thermal.zero_matsubara.d_i_m_0_t_i, Qcd.thermal.zero_matsubara.d_i_m_0_t_i, ofR_real, num_val, I_val, add_val, sub_val, mul_val, neg_val, inv_val, div_val, ofR_val, toC_val, energy_val, bose_val, fermi_val, fermi_zero_val, thermal_zero_matsubara_r_0_val, thermal_zero_matsubara_tlog_val]

theorem thermal_zero_matsubara_d_i_0_0_t_i_val (q : ℝ) (p : ℝ) (beta : ℝ) (hq : 0 < q) (hp : 0 < p) (hb : 0 < beta) (h2 : 2 * -q + p ≠ 0) :
    P.thermal.zero_matsubara.d_i_0_0_t_i (val q) (val p) (val beta) = val (Qcd.thermal.zero_matsubara.d_i_0_0_t_i q p beta) := by
  have hq0 := hq.ne'
  have hp0 := hp.ne'
  have h3 : 2 * q + p ≠ 0 := by positivity
  simp (disch := nz) only [P.thermal.zero_matsubara.d_i_0_0_t_i, Qcd.thermal.zero_matsubara.d_i_0_0_t_i, ofR_real, num_val, I_val, add_val, sub_val, mul_val, neg_val, inv_val, div_val, ofR_val, toC_val, energy_val, bose_val, fermi_val, fermi_zero_val, thermal_zero_matsubara_tlog_same_mass_val]

theorem ghost_thermal_self_energy_thermal_part_landau_i_val {T : Type} [Num T] [NumDom T] (q : ℝ) (om : T) (p : ℝ) (m : ℝ) (beta : ℝ) (hq : 0 < q) (ho : (toC om).re ≠ 0) (hp : p ≠ 0) (hb : 0 < beta) (hm : m ≠ 0) :
    P.ghost.thermal.self_energy_thermal_part_landau_i (val q) (val om) (val p) (val m) (val beta) = val (Qcd.ghost.thermal.self_energy_thermal_part_landau_i q om p m beta) := by
  have hq0 := hq.ne'
  simp (disch := nz) only [P.ghost.thermal.self_energy_thermal_part_landau_i, Qcd.ghost.thermal.self_energy_thermal_part_landau_i, ofR_real, num_val, I_val, add_val, sub_val, mul_val, neg_val, inv_val, div_val, ofR_val, toC_val, energy_val, bose_val, fermi_val, fermi_zero_val, thermal_d_i_m_0_i_val, thermal_d_j_m_i_val, thermal_i_0_0_i_val, thermal_i_m_0_i_val, thermal_j_0_i_val, thermal_j_m_i_val]

theorem ghost_thermal_zero_matsubara_self_energy_thermal_part_landau_i_val (q : ℝ) (p : ℝ) (m : ℝ) (beta : ℝ) (hq : 0 < q) (hp : 0 < p) (hb : 0 < beta) (hm : m ≠ 0) (h2 : 2 * -q + p ≠ 0) (hR : (p * p - m * m) ^ 2 ≠ (2 * q * p) ^ 2) (hR2 : (p * p + m * m) ^ 2 ≠ (2 * q * p) ^ 2) :
    P.ghost.thermal.zero_matsubara.self_energy_thermal_part_landau_i (val q) (val p) (val m) (val beta) = val (Qcd.ghost.thermal.zero_matsubara.self_energy_thermal_part_landau_i q p m beta) := by
  have hq0 := hq.ne'
  have hp0 := hp.ne'
  have h3 : 2 * q + p ≠ 0 := by positivity
  simp (disch := nz) only [P.ghost.thermal.zero_matsubara.self_energy_thermal_part_landau_i, Qcd.ghost.thermal.zero_matsubara.self_energy_thermal_part_landau_i, ofR_real, num_val, I_val, add_val, sub_val, mul_val, neg_val, inv_val, div_val, ofR_val, toC_val, energy_val, bose_val, fermi_val, fermi_zero_val, thermal_d_j_m_i_val, thermal_j_0_i_val, thermal_j_m_i_val, thermal_zero_matsubara_d_i_m_0_i_val, thermal_zero_matsubara_i_0_0_i_val, thermal_zero_matsubara_i_m_0_i_val]

theorem ghost_thermal_zero_momentum_self_energy_thermal_part_landau_i_val {T : Type} [Num T] [NumDom T] (q : ℝ) (om : T) (m : ℝ) (beta : ℝ) (hq : 0 < q) (ho : (toC om).re ≠ 0) (hb : 0 < beta) (hm : m ≠ 0) :
    P.ghost.thermal.zero_momentum.self_energy_thermal_part_landau_i (val q) (val om) (val m) (val beta) = val (Qcd.ghost.thermal.zero_momentum.self_energy_thermal_part_landau_i q om m beta) := by
  have hq0 := hq.ne'
  simp (disch := nz) only [P.ghost.thermal.zero_momentum.self_energy_thermal_part_landau_i, Qcd.ghost.thermal.zero_momentum.self_energy_thermal_part_landau_i, ofR_real, num_val, I_val, add_val, sub_val, mul_val, neg_val, inv_val, div_val, ofR_val, toC_val, energy_val, bose_val, fermi_val, fermi_zero_val, thermal_d_j_m_i_val, thermal_j_0_i_val, thermal_j_m_i_val, thermal_zero_momentum_d_i_m_0_i_val, thermal_zero_momentum_i_0_0_i_val, thermal_zero_momentum_i_m_0_i_val]

theorem gluon_thermal_polarization_glue_l_thermal_part_landau_i_val {T : Type} [Num T] [NumDom T] (q : ℝ) (om : T) (p : ℝ) (m : ℝ) (beta : ℝ) (hq : 0 < q) (ho : (toC om).re ≠ 0) (hp : p ≠ 0) (hb : 0 < beta) (hm : m ≠ 0) :
    P.gluon.thermal.polarization_glue_l_thermal_part_landau_i (val q) (val om) (val p) (val m) (val beta) = val (Qcd.gluon.thermal.polarization_glue_l_thermal_part_landau_i q om p m beta) := by
  have hq0 := hq.ne'
  simp (disch := nz) only [P.gluon.thermal.polarization_glue_l_thermal_part_landau_i, Qcd.gluon.thermal.polarization_glue_l_thermal_part_landau_i, ofR_real, num_val, I_val, add_val, sub_val, mul_val, neg_val, inv_val, div_val, ofR_val, toC_val, energy_val, bose_val, fermi_val, fermi_zero_val, thermal_d2_j_m_i_val, thermal_d2_j_m_l_i_val, thermal_d2_j_m_t_i_val, thermal_d_i_m_0_i_val, thermal_d_i_m_0_l_i_val, thermal_d_i_m_m_i_same_mass_val, thermal_d_i_m_m_l_i_same_mass_val, thermal_d_j_m_i_val, thermal_d_j_m_l_i_val, thermal_d_j_m_t_i_val, thermal_i_0_0_l_i_val, thermal_i_m_0_i_val, thermal_i_m_0_l_i_val, thermal_i_m_m_i_same_mass_val, thermal_i_m_m_l_i_same_mass_val, thermal_j_0_i_val, thermal_j_0_l_i_val, thermal_j_0_t_i_val, thermal_j_m_i_val, thermal_j_m_l_i_val, thermal_j_m_t_i_val]

theorem gluon_thermal_polarization_glue_t_thermal_part_landau_i_val {T : Type} [Num T] [NumDom T] (q : ℝ) (om : T) (p : ℝ) (m : ℝ) (beta : ℝ) (hq : 0 < q) (ho : (toC om).re ≠ 0) (hp : p ≠ 0) (hb : 0 < beta) (hm : m ≠ 0) :
    P.gluon.thermal.polarization_glue_t_thermal_part_landau_i (val q) (val om) (val p) (val m) (val beta) = val (Qcd.gluon.thermal.polarization_glue_t_thermal_part_landau_i q om p m beta) := by
  have hq0 := hq.ne'
  simp (disch := nz) only [P.gluon.thermal.polarization_glue_t_thermal_part_landau_i, Qcd.gluon.thermal.polarization_glue_t_thermal_part_landau_i, ofR_real, num_val, I_val, add_val, sub_val, mul_val, neg_val, inv_val, div_val, ofR_val, toC_val, energy_val, bose_val, fermi_val, fermi_zero_val, thermal_d2_j_m_i_val, thermal_d2_j_m_t_i_val, thermal_d_i_m_0_i_val, thermal_d_i_m_0_t_i_val, thermal_d_i_m_m_i_same_mass_val, thermal_d_i_m_m_t_i_same_mass_val, thermal_d_j_m_i_val, thermal_d_j_m_t_i_val, thermal_i_0_0_t_i_val, thermal_i_m_0_i_val, thermal_i_m_0_t_i_val, thermal_i_m_m_i_same_mass_val, thermal_i_m_m_t_i_same_mass_val, thermal_j_0_i_val, thermal_j_0_t_i_val, thermal_j_m_i_val, thermal_j_m_t_i_val]

theorem gluon_thermal_polarization_quark_l_thermal_part_landau_i_val {T : Type} [Num T] [NumDom T] (k : Consts ℝ) (q : ℝ) (om : T) (p : ℝ) (mq : ℝ) (beta : ℝ) (mu : ℝ) (hq : 0 < q) (ho : (toC om).re ≠ 0) (hp : p ≠ 0) (hb : 0 < beta) (hk : k.nc ≠ 0) :
    P.gluon.thermal.polarization_quark_l_thermal_part_landau_i k (val q) (val om) (val p) (val mq) (val beta) (val mu) = val (Qcd.gluon.thermal.polarization_quark_l_thermal_part_landau_i k q om p mq beta mu) := by
  have hq0 := hq.ne'
  have hk0 : (k.nc : ℝ) ≠ 0 := Nat.cast_ne_zero.2 hk
  simp (disch := nz) only [P.gluon.thermal.polarization_quark_l_thermal_part_landau_i, Qcd.gluon.thermal.polarization_quark_l_thermal_part_landau_i, ofR_real, num_val, I_val, add_val, sub_val, mul_val, neg_val, inv_val, div_val, ofR_val, toC_val, energy_val, bose_val, fermi_val, fermi_zero_val, thermal_tlog_same_mass_val]

theorem gluon_thermal_polarization_quark_t_thermal_part_landau_i_val {T : Type} [Num T] [NumDom T] (k : Consts ℝ) (q : ℝ) (om : T) (p : ℝ) (mq : ℝ) (beta : ℝ) (mu : ℝ) (hq : 0 < q) (ho : (toC om).re ≠ 0) (hp : p ≠ 0) (hb : 0 < beta) (hk : k.nc ≠ 0) :
    P.gluon.thermal.polarization_quark_t_thermal_part_landau_i k (val q) (val om) (val p) (val mq) (val beta) (val mu) = val (Qcd.gluon.thermal.polarization_quark_t_thermal_part_landau_i k q om p mq beta mu) := by
  have hq0 := hq.ne'
  have hk0 : (k.nc : ℝ) ≠ 0 := Nat.cast_ne_zero.2 hk
  simp (disch := nz) only [P.gluon.thermal.polarization_quark_t_thermal_part_landau_i, Qcd.gluon.thermal.polarization_quark_t_thermal_part_landau_i, ofR_real, num_val, I_val, add_val, sub_val, mul_val, neg_val, inv_val, div_val, ofR_val, toC_val, energy_val, bose_val, fermi_val, fermi_zero_val, thermal_tlog_same_mass_val]

theorem gluon_thermal_polarization_quark_l_thermal_part_zero_temp_landau_i_val {T : Type} [Num T] [NumDom T] (k : Consts ℝ) (q : ℝ) (om : T) (p : ℝ) (mq : ℝ) (mu : ℝ) (hq : 0 < q) (ho : (toC om).re ≠ 0) (hp : p ≠ 0) (hk : k.nc ≠ 0) :
    P.gluon.thermal.polarization_quark_l_thermal_part_zero_temp_landau_i k (val q) (val om) (val p) (val mq) (val mu) = val (Qcd.gluon.thermal.polarization_quark_l_thermal_part_zero_temp_landau_i k q om p mq mu) := by
  have hq0 := hq.ne'
  have hk0 : (k.nc : ℝ) ≠ 0 := Nat.cast_ne_zero.2 hk
  simp (disch := nz) only [P.gluon.thermal.polarization_quark_l_thermal_part_zero_temp_landau_i, Qcd.gluon.thermal.polarization_quark_l_thermal_part_zero_temp_landau_i, ofR_real, num_val, I_val, add_val, sub_val, mul_val, neg_val, inv_val, div_val, ofR_val, toC_val, energy_val, bose_val, fermi_val, fermi_zero_val, thermal_tlog_same_mass_val]

theorem gluon_thermal_polarization_quark_t_thermal_part_zero_temp_landau_i_val {T : Type} [Num T] [NumDom T] (k : Consts ℝ) (q : ℝ) (om : T) (p : ℝ) (mq : ℝ) (mu : ℝ) (hq : 0 < q) (ho : (toC om).re ≠ 0) (hp : p ≠ 0) (hk : k.nc ≠ 0) :
    P.gluon.thermal.polarization_quark_t_thermal_part_zero_temp_landau_i k (val q) (val om) (val p) (val mq) (val mu) = val (Qcd.gluon.thermal.polarization_quark_t_thermal_part_zero_temp_landau_i k q om p mq mu) := by
  have hq0 := hq.ne'
  have hk0 : (k.nc : ℝ) ≠ 0 := Nat.cast_ne_zero.2 hk
  simp (disch := nz) only [P.gluon.thermal.polarization_quark_t_thermal_part_zero_temp_landau_i, Qcd.gluon.thermal.polarization_quark_t_thermal_part_zero_temp_landau_i, ofR_real, num_val, I_val, add_val, sub_val, mul_val, neg_val, inv_val, div_val, ofR_val, toC_val, energy_val, bose_val, fermi_val, fermi_zero_val, thermal_tlog_same_mass_val]

theorem gluon_thermal_zero_matsubara_polarization_glue_l_thermal_part_landau_i_val (q : ℝ) (p : ℝ) (m : ℝ) (beta : ℝ) (hq : 0 < q) (hp : 0 < p) (hb : 0 < beta) (hm : m ≠ 0) (h2 : 2 * -q + p ≠ 0) (hR : (p * p - m * m) ^ 2 ≠ (2 * q * p) ^ 2) (hR2 : (p * p + m * m) ^ 2 ≠ (2 * q * p) ^ 2) :
    P.gluon.thermal.zero_matsubara.polarization_glue_l_thermal_part_landau_i (val q) (val p) (val m) (val beta) = val (Qcd.gluon.thermal.zero_matsubara.polarization_glue_l_thermal_part_landau_i q p m beta) := by
  have hq0 := hq.ne'
  have hp0 := hp.ne'
  have h3 : 2 * q + p ≠ 0 := by positivity
  simp (disch := nz) only [P.gluon.thermal.zero_matsubara.polarization_glue_l_thermal_part_landau_i, Qcd.gluon.thermal.zero_matsubara.polarization_glue_l_thermal_part_landau_i, ofR_real, num_val, I_val, add_val, sub_val, mul_val, neg_val, inv_val, div_val, ofR_val, toC_val, energy_val, bose_val, fermi_val, fermi_zero_val, thermal_d2_j_m_i_val, thermal_d2_j_m_l_i_val, thermal_d_j_m_i_val, thermal_d_j_m_l_i_val, thermal_j_0_i_val, thermal_j_0_l_i_val, thermal_j_m_i_val, thermal_j_m_l_i_val, thermal_zero_matsubara_d_i_m_0_i_val, thermal_zero_matsubara_d_i_m_0_l_i_val, thermal_zero_matsubara_d_i_m_m_i_same_mass_val, thermal_zero_matsubara_d_i_m_m_l_i_same_mass_val, thermal_zero_matsubara_i_0_0_l_i_val, thermal_zero_matsubara_i_m_0_i_val, thermal_zero_matsubara_i_m_0_l_i_val, thermal_zero_matsubara_i_m_m_i_same_mass_val, thermal_zero_matsubara_i_m_m_l_i_same_mass_val]

theorem gluon_thermal_zero_matsubara_polarization_glue_t_thermal_part_landau_i_val (q : ℝ) (p : ℝ) (m : ℝ) (beta : ℝ) (hq : 0 < q) (hp : 0 < p) (hb : 0 < beta) (hm : m ≠ 0) (h2 : 2 * -q + p ≠ 0) (hR : (p * p - m * m) ^ 2 ≠ (2 * q * p) ^ 2) (hR2 : (p * p + m * m) ^ 2 ≠ (2 * q * p) ^ 2) :
    P.gluon.thermal.zero_matsubara.polarization_glue_t_thermal_part_landau_i (val q) (val p) (val m) (val beta) = val (Qcd.gluon.thermal.zero_matsubara.polarization_glue_t_thermal_part_landau_i q p m beta) := by
  have hq0 := hq.ne'
  have hp0 := hp.ne'
  have h3 : 2 * q + p ≠ 0 := by positivity
  simp (disch := nz) only [P.gluon.thermal.zero_matsubara.polarization_glue_t_thermal_part_landau_i, Qcd.gluon.thermal.zero_matsubara.polarization_glue_t_thermal_part_landau_i, ofR_real, num_val, I_val, add_val, sub_val, mul_val, neg_val, inv_val, div_val, ofR_val, toC_val, energy_val, bose_val, fermi_val, fermi_zero_val, thermal_d2_j_m_i_val, thermal_d2_j_m_t_i_val, thermal_d_j_m_i_val, thermal_d_j_m_t_i_val, thermal_j_0_i_val, thermal_j_0_t_i_val, thermal_j_m_i_val, thermal_j_m_t_i_val, thermal_zero_matsubara_d_i_m_0_i_val, thermal_zero_matsubara_d_i_m_0_t_i_val, thermal_zero_matsubara_d_i_m_m_i_same_mass_val, thermal_zero_matsubara_d_i_m_m_t_i_same_mass_val, thermal_zero_matsubara_i_0_0_t_i_val, thermal_zero_matsubara_i_m_0_i_val, thermal_zero_matsubara_i_m_0_t_i_val, thermal_zero_matsubara_i_m_m_i_same_mass_val, thermal_zero_matsubara_i_m_m_t_i_same_mass_val]

theorem gluon_thermal_zero_matsubara_polarization_quark_l_thermal_part_landau_i_val (k : Consts ℝ) (q : ℝ) (p : ℝ) (mq : ℝ) (beta : ℝ) (mu : ℝ) (hq : 0 < q) (hp : 0 < p) (hb : 0 < beta) (hk : k.nc ≠ 0) (h2 : 2 * -q + p ≠ 0) :
    P.gluon.thermal.zero_matsubara.polarization_quark_l_thermal_part_landau_i k (val q) (val p) (val mq) (val beta) (val mu) = val (Qcd.gluon.thermal.zero_matsubara.polarization_quark_l_thermal_part_landau_i k q p mq beta mu) := by
  have hq0 := hq.ne'
  have hp0 := hp.ne'
  have hk0 : (k.nc : ℝ) ≠ 0 := Nat.cast_ne_zero.2 hk
  have h3 : 2 * q + p ≠ 0 := by positivity
  simp (disch := nz) only [P.gluon.thermal.zero_matsubara.polarization_quark_l_thermal_part_landau_i, Qcd.gluon.thermal.zero_matsubara.polarization_quark_l_thermal_part_landau_i, ofR_real, num_val, I_val, add_val, sub_val, mul_val, neg_val, inv_val, div_val, ofR_val, toC_val, energy_val, bose_val, fermi_val, fermi_zero_val, thermal_zero_matsubara_tlog_same_mass_val]

theorem gluon_thermal_zero_matsubara_polarization_quark_t_thermal_part_landau_i_val (k : Consts ℝ) (q : ℝ) (p : ℝ) (mq : ℝ) (beta : ℝ) (mu : ℝ) (hq : 0 < q) (hp : 0 < p) (hb : 0 < beta) (hk : k.nc ≠ 0) (h2 : 2 * -q + p ≠ 0) :
    P.gluon.thermal.zero_matsubara.polarization_quark_t_thermal_part_landau_i k (val q) (val p) (val mq) (val beta) (val mu) = val (Qcd.gluon.thermal.zero_matsubara.polarization_quark_t_thermal_part_landau_i k q p mq beta mu) := by
  have hq0 := hq.ne'
  have hp0 := hp.ne'
  have hk0 : (k.nc : ℝ) ≠ 0 := Nat.cast_ne_zero.2 hk
  have h3 : 2 * q + p ≠ 0 := by positivity
  simp (disch := nz) only [P.gluon.thermal.zero_matsubara.polarization_quark_t_thermal_part_landau_i, Qcd.gluon.thermal.zero_matsubara.polarization_quark_t_thermal_part_landau_i, ofR_real, num_val, I_val, add_val, sub_val, mul_val, neg_val, inv_val, div_val, ofR_val, toC_val, energy_val, bose_val, fermi_val, fermi_zero_val, thermal_zero_matsubara_tlog_same_mass_val]

theorem gluon_thermal_zero_matsubara_polarization_quark_l_thermal_part_zero_temp_landau_i_val (k : Consts ℝ) (q : ℝ) (p : ℝ) (mq : ℝ) (mu : ℝ) (hq : 0 < q) (hp : 0 < p) (hk : k.nc ≠ 0) (h2 : 2 * -q + p ≠ 0) :
    P.gluon.thermal.zero_matsubara.polarization_quark_l_thermal_part_zero_temp_landau_i k (val q) (val p) (val mq) (val mu) = val (Qcd.gluon.thermal.zero_matsubara.polarization_quark_l_thermal_part_zero_temp_landau_i k q p mq mu) := by
  have hq0 := hq.ne'
  have hp0 := hp.ne'
  have hk0 : (k.nc : ℝ) ≠ 0 := Nat.cast_ne_zero.2 hk
  have h3 : 2 * q + p ≠ 0 := by positivity
  simp (disch := nz) only [P.gluon.thermal.zero_matsubara.polarization_quark_l_thermal_part_zero_temp_landau_i, Qcd.gluon.thermal.zero_matsubara.polarization_quark_l_thermal_part_zero_temp_landau_i, ofR_real, num_val, I_val, add_val, sub_val, mul_val, neg_val, inv_val, div_val, ofR_val, toC_val, energy_val, bose_val, fermi_val, fermi_zero_val, thermal_zero_matsubara_tlog_same_mass_val]

theorem gluon_thermal_zero_matsubara_polarization_quark_t_thermal_part_zero_temp_landau_i_val (k : Consts ℝ) (q : ℝ) (p : ℝ) (mq : ℝ) (mu : ℝ) (hq : 0 < q) (hp : 0 < p) (hk : k.nc ≠ 0) (h2 : 2 * -q + p ≠ 0) :
    P.gluon.thermal.zero_matsubara.polarization_quark_t_thermal_part_zero_temp_landau_i k (val q) (val p) (val mq) (val mu) = val (Qcd.gluon.thermal.zero_matsubara.polarization_quark_t_thermal_part_zero_temp_landau_i k q p mq mu) := by
  have hq0 := hq.ne'
  have hp0 := hp.ne'
  have hk0 : (k.nc : ℝ) ≠ 0 := Nat.cast_ne_zero.2 hk
  have h3 : 2 * q + p ≠ 0 := by positivity
  simp (disch := nz) only [P.gluon.thermal.zero_matsubara.polarization_quark_t_thermal_part_zero_temp_landau_i, Qcd.gluon.thermal.zero_matsubara.polarization_quark_t_thermal_part_zero_temp_landau_i, ofR_real, num_val, I_val, add_val, sub_val, mul_val, neg_val, inv_val, div_val, ofR_val, toC_val, energy_val, bose_val, fermi_val, fermi_zero_val, thermal_zero_matsubara_tlog_same_mass_val]

theorem gluon_thermal_zero_momentum_polarization_glue_l_thermal_part_landau_i_val {T : Type} [Num T] [NumDom T] (q : ℝ) (om : T) (m : ℝ) (beta : ℝ) (hq : 0 < q) (ho : (toC om).re ≠ 0) (hb : 0 < beta) (hm : m ≠ 0) :
    P.gluon.thermal.zero_momentum.polarization_glue_l_thermal_part_landau_i (val q) (val om) (val m) (val beta) = val (Qcd.gluon.thermal.zero_momentum.polarization_glue_l_thermal_part_landau_i q om m beta) := by
  have hq0 := hq.ne'
  simp (disch := nz) only [P.gluon.thermal.zero_momentum.polarization_glue_l_thermal_part_landau_i, Qcd.gluon.thermal.zero_momentum.polarization_glue_l_thermal_part_landau_i, ofR_real, num_val, I_val, add_val, sub_val, mul_val, neg_val, inv_val, div_val, ofR_val, toC_val, energy_val, bose_val, fermi_val, fermi_zero_val, thermal_d2_j_m_i_val, thermal_d2_j_m_t_i_val, thermal_d_j_m_i_val, thermal_d_j_m_t_i_val, thermal_j_0_i_val, thermal_j_0_t_i_val, thermal_j_m_i_val, thermal_j_m_t_i_val, thermal_zero_momentum_d_i_m_0_i_val, thermal_zero_momentum_d_i_m_0_l_i_val, thermal_zero_momentum_d_i_m_m_i_same_mass_val, thermal_zero_momentum_d_i_m_m_l_i_same_mass_val, thermal_zero_momentum_i_0_0_l_i_val, thermal_zero_momentum_i_m_0_i_val, thermal_zero_momentum_i_m_0_l_i_val, thermal_zero_momentum_i_m_m_i_same_mass_val, thermal_zero_momentum_i_m_m_l_i_same_mass_val]

theorem gluon_thermal_zero_momentum_polarization_glue_t_thermal_part_landau_i_val {T : Type} [Num T] [NumDom T] (q : ℝ) (om : T) (m : ℝ) (beta : ℝ) (hq : 0 < q) (ho : (toC om).re ≠ 0) (hb : 0 < beta) (hm : m ≠ 0) :
    P.gluon.thermal.zero_momentum.polarization_glue_t_thermal_part_landau_i (val q) (val om) (val m) (val beta) = val (Qcd.gluon.thermal.zero_momentum.polarization_glue_t_thermal_part_landau_i q om m beta) := by
  have hq0 := hq.ne'
  simp (disch := nz) only [P.gluon.thermal.zero_momentum.polarization_glue_t_thermal_part_landau_i, Qcd.gluon.thermal.zero_momentum.polarization_glue_t_thermal_part_landau_i, ofR_real, num_val, I_val, add_val, sub_val, mul_val, neg_val, inv_val, div_val, ofR_val, toC_val, energy_val, bose_val, fermi_val, fermi_zero_val, gluon_thermal_zero_momentum_polarization_glue_l_thermal_part_landau_i_val]

theorem gluon_thermal_zero_momentum_polarization_quark_l_thermal_part_landau_i_val {T : Type} [Num T] [NumDom T] (k : Consts ℝ) (q : ℝ) (om : T) (mq : ℝ) (beta : ℝ) (mu : ℝ) (hq : 0 < q) (ho : (toC om).re ≠ 0) (hb : 0 < beta) (hk : k.nc ≠ 0) :
    P.gluon.thermal.zero_momentum.polarization_quark_l_thermal_part_landau_i k (val q) (val om) (val mq) (val beta) (val mu) = val (Qcd.gluon.thermal.zero_momentum.polarization_quark_l_thermal_part_landau_i k q om mq beta mu) := by
  have hq0 := hq.ne'
  have hk0 : (k.nc : ℝ) ≠ 0 := Nat.cast_ne_zero.2 hk
  simp (disch := nz) only [P.gluon.thermal.zero_momentum.polarization_quark_l_thermal_part_landau_i, Qcd.gluon.thermal.zero_momentum.polarization_quark_l_thermal_part_landau_i, ofR_real, num_val, I_val, add_val, sub_val, mul_val, neg_val, inv_val, div_val, ofR_val, toC_val, energy_val, bose_val, fermi_val, fermi_zero_val]

theorem gluon_thermal_zero_momentum_polarization_quark_t_thermal_part_landau_i_val {T : Type} [Num T] [NumDom T] (k : Consts ℝ) (q : ℝ) (om : T) (mq : ℝ) (beta : ℝ) (mu : ℝ) (hq : 0 < q) (ho : (toC om).re ≠ 0) (hb : 0 < beta) (hk : k.nc ≠ 0) :
    P.gluon.thermal.zero_momentum.polarization_quark_t_thermal_part_landau_i k (val q) (val om) (val mq) (val beta) (val mu) = val (Qcd.gluon.thermal.zero_momentum.polarization_quark_t_thermal_part_landau_i k q om mq beta mu) := by
  have hq0 := hq.ne'
  have hk0 : (k.nc : ℝ) ≠ 0 := Nat.cast_ne_zero.2 hk
  simp (disch := nz) only [P.gluon.thermal.zero_momentum.polarization_quark_t_thermal_part_landau_i, Qcd.gluon.thermal.zero_momentum.polarization_quark_t_thermal_part_landau_i, ofR_real, num_val, I_val, add_val, sub_val, mul_val, neg_val, inv_val, div_val, ofR_val, toC_val, energy_val, bose_val, fermi_val, fermi_zero_val, gluon_thermal_zero_momentum_polarization_quark_l_thermal_part_landau_i_val]

theorem gluon_thermal_zero_momentum_polarization_quark_l_thermal_part_zero_temp_landau_i_val {T : Type} [Num T] [NumDom T] (k : Consts ℝ) (q : ℝ) (om : T) (mq : ℝ) (mu : ℝ) (hq : 0 < q) (ho : (toC om).re ≠ 0) (hk : k.nc ≠ 0) :
    P.gluon.thermal.zero_momentum.polarization_quark_l_thermal_part_zero_temp_landau_i k (val q) (val om) (val mq) (val mu) = val (Qcd.gluon.thermal.zero_momentum.polarization_quark_l_thermal_part_zero_temp_landau_i k q om mq mu) := by
  have hq0 := hq.ne'
  have hk0 : (k.nc : ℝ) ≠ 0 := Nat.cast_ne_zero.2 hk
  simp (disch := nz) only [P.gluon.thermal.zero_momentum.polarization_quark_l_thermal_part_zero_temp_landau_i, Qcd.gluon.thermal.zero_momentum.polarization_quark_l_thermal_part_zero_temp_landau_i, ofR_real, num_val, I_val, add_val, sub_val, mul_val, neg_val, inv_val, div_val, ofR_val, toC_val, energy_val, bose_val, fermi_val, fermi_zero_val]

theorem gluon_thermal_zero_momentum_polarization_quark_t_thermal_part_zero_temp_landau_i_val {T : Type} [Num T] [NumDom T] (k : Consts ℝ) (q : ℝ) (om : T) (mq : ℝ) (mu : ℝ) (hq : 0 < q) (ho : (toC om).re ≠ 0) (hk : k.nc ≠ 0) :
    P.gluon.thermal.zero_momentum.polarization_quark_t_thermal_part_zero_temp_landau_i k (val q) (val om) (val mq) (val mu) = val (Qcd.gluon.thermal.zero_momentum.polarization_quark_t_thermal_part_zero_temp_landau_i k q om mq mu) := by
  have hq0 := hq.ne'
  have hk0 : (k.nc : ℝ) ≠ 0 := Nat.cast_ne_zero.2 hk
  simp (disch := nz) only [P.gluon.thermal.zero_momentum.polarization_quark_t_thermal_part_zero_temp_landau_i, Qcd.gluon.thermal.zero_momentum.polarization_quark_t_thermal_part_zero_temp_landau_i, ofR_real, num_val, I_val, add_val, sub_val, mul_val, neg_val, inv_val, div_val, ofR_val, toC_val, energy_val, bose_val, fermi_val, fermi_zero_val, gluon_thermal_zero_momentum_polarization_quark_l_thermal_part_zero_temp_landau_i_val]

end Qcd.Def
