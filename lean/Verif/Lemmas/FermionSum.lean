import Verif.Lemmas.MatsubaraDiagram
import Verif.Spec.QuarkDiagram

/-! # Sums over fermionic frequencies and integrals over shifted lines -/

namespace Qcd.Matsubara
open Filter Topology Complex MeasureTheory Polynomial
open scoped Real

/-- Occupation number at energy `x` from the Fermi level. -/
noncomputable def occ (beta x : ℝ) : ℝ := (Real.exp (beta * x) + 1)⁻¹

theorem exp_shift {beta r : ℝ} {l : ℤ} (hb : 0 < beta) (hr : beta * r = 2 * π * l) (mu E : ℝ) :
    Complex.exp (2 * I * (beta * (r + E * I - (π / beta + I * mu)) / 2)) = -(Complex.exp (beta * (E - mu)))⁻¹ := by
  have hbc : (beta : ℂ) ≠ 0 := by exact_mod_cast hb.ne'
  have hr' : (beta : ℂ) * r = 2 * π * l := by exact_mod_cast hr
  have : 2 * I * (beta * (r + E * I - (π / beta + I * mu)) / 2) = -(beta * (E - mu)) + l * (2 * π * I) - π * I := by
    have h1 : (beta : ℂ) * (π / beta) = π := by field_simp
    linear_combination I * hr' + beta * (E - mu) * I_sq - I * h1
  rw [this, Complex.exp_sub, Complex.exp_add, Complex.exp_int_mul_two_pi_mul_I, mul_one, Complex.exp_pi_mul_I, Complex.exp_neg]
  ring

theorem fermi_up {beta E r : ℝ} {l : ℤ} (hb : 0 < beta) (hE : 0 < E) (hr : beta * r = 2 * π * l) (mu : ℝ) :
    weight beta (π / beta + I * mu) (r + E * I) = -(I * occ beta (E - mu)) := by
  rw [weight, if_pos (by simpa using hE), Complex.cot_eq_exp_ratio, exp_shift hb hr, occ]
  push_cast
  have hx := Complex.exp_ne_zero (beta * (E - mu))
  have hu : Complex.exp (beta * (E - mu)) + 1 ≠ 0 := by
    have : (0 : ℝ) < Real.exp (beta * (E - mu)) + 1 := by positivity
    exact_mod_cast this.ne'
  generalize Complex.exp (beta * (E - mu)) = u at *
  have e1 : 1 - -u⁻¹ = (u + 1) / u := by field_simp; ring
  have e2 : -u⁻¹ + 1 = (u - 1) / u := by field_simp; ring
  rw [e1, e2]
  field_simp
  linear_combination (-(u + 1) + 2) * I_sq

theorem fermi_down {beta E r : ℝ} {l : ℤ} (hb : 0 < beta) (hE : 0 < E) (hr : beta * r = 2 * π * l) (mu : ℝ) :
    weight beta (π / beta + I * mu) (r - E * I) = I * occ beta (E + mu) := by
  have e := exp_shift hb hr mu (-E)
  have e0 : (r : ℂ) + (-E : ℝ) * I = r - E * I := by push_cast; ring
  have e3 : (beta : ℂ) * ((-E : ℝ) - mu) = -(beta * (E + mu)) := by push_cast; ring
  rw [e0, e3, Complex.exp_neg, inv_inv] at e
  rw [weight, if_neg (by simpa using hE.le), Complex.cot_eq_exp_ratio, e, occ]
  push_cast
  have hu : Complex.exp (beta * (E + mu)) + 1 ≠ 0 := by
    have : (0 : ℝ) < Real.exp (beta * (E + mu)) + 1 := by positivity
    exact_mod_cast this.ne'
  generalize Complex.exp (beta * (E + mu)) = u at *
  have e1 : 1 - -u = u + 1 := by ring
  rw [e1]
  field_simp
  linear_combination (u + 1 - 2) * I_sq

section loop
variable {A B : Type} [Fintype A] [Fintype B] [DecidableEq A] [DecidableEq B] {E : A → ℝ} {K : B → ℝ} {om : ℝ} {N : ℂ[X]} {F : ℂ → ℂ}

/-- Sum over the poles with a weight. -/
noncomputable def poleSum (F : ℂ → ℂ) (om : ℝ) (E : A → ℝ) (K : B → ℝ) (W : ℂ → ℂ) : ℂ :=
  ∑ a, (Spec.atPole F (E a) (I * E a) / (2 * I * E a) * W (I * E a) - Spec.atPole F (E a) (-(I * E a)) / (2 * I * E a) * W (-(I * E a)))
    + ∑ b, (Spec.atPole (fun w => F (-(om + w))) (K b) (-(I * K b)) / (2 * I * K b) * W (-om + I * K b)
        - Spec.atPole (fun w => F (-(om + w))) (K b) (I * K b) / (2 * I * K b) * W (-om - I * K b))

theorem poleSum_eq (hE : ∀ a, 0 < E a) (hK : ∀ b, 0 < K b) {W : ℂ → ℂ} {u d : ℝ → ℂ}
    (h1 : ∀ a, W (I * E a) = -(I * u (E a))) (h2 : ∀ a, W (-(I * E a)) = I * d (E a))
    (h3 : ∀ b, W (-om + I * K b) = -(I * u (K b))) (h4 : ∀ b, W (-om - I * K b) = I * d (K b)) :
    poleSum F om E K W = -(∑ a, (u (E a) * Spec.atPole F (E a) (I * E a) + d (E a) * Spec.atPole F (E a) (-(I * E a))) / (2 * E a)
      + ∑ b, (d (K b) * Spec.atPole (fun w => F (-(om + w))) (K b) (I * K b)
        + u (K b) * Spec.atPole (fun w => F (-(om + w))) (K b) (-(I * K b))) / (2 * K b)) := by
  rw [poleSum, neg_add, ← Finset.sum_neg_distrib, ← Finset.sum_neg_distrib]
  congr 1 <;> refine Finset.sum_congr rfl fun a _ => ?_
  · have h0 : (E a : ℂ) ≠ 0 := by exact_mod_cast (hE a).ne'
    rw [h1, h2]
    have := I_ne_zero
    field_simp
    ring
  · have h0 : (K a : ℂ) ≠ 0 := by exact_mod_cast (hK a).ne'
    rw [h3, h4]
    have := I_ne_zero
    field_simp
    ring

theorem IsLoop.residues (h : IsLoop om E K N F) (hE : ∀ a, 0 < E a) (hK : ∀ b, 0 < K b) (iE : Function.Injective E)
    (iK : Function.Injective K) (ho : om ≠ 0) (hN : N.natDegree + 2 ≤ 2 * (Fintype.card A + Fintype.card B)) (W : ℂ → ℂ) :
    ∑ j, res N (pole om E K) j * W (pole om E K j) = poleSum F om E K W := by
  rw [poleSum, Fintype.sum_prod_type, Fintype.sum_sum_type]
  congr 1 <;> refine Finset.sum_congr rfl fun a _ => ?_ <;> rw [Fintype.sum_bool]
  · have h1 := h.atPole_left hE hK iE iK ho hN a
    have h0 : (E a : ℂ) ≠ 0 := by exact_mod_cast (hE a).ne'
    have e1 : pole om E K (.inl a, true) = I * E a := by simp [pole, mul_comm]
    have e2 : pole om E K (.inl a, false) = -(I * E a) := by simp [pole, mul_comm]
    rw [h1.1, h1.2, e1, e2]
    generalize res N (pole om E K) (.inl a, true) = r1
    generalize res N (pole om E K) (.inl a, false) = r2
    have := I_ne_zero
    field_simp
    ring
  · have h1 := h.atPole_right hE hK iE iK ho hN a
    have h0 : (K a : ℂ) ≠ 0 := by exact_mod_cast (hK a).ne'
    have e1 : pole om E K (.inr a, true) = -om + I * K a := by simp [pole, mul_comm]
    have e2 : pole om E K (.inr a, false) = -om - I * K a := by simp [pole, mul_comm]; ring
    rw [h1.1, h1.2, e1, e2]
    generalize res N (pole om E K) (.inr a, true) = r1
    generalize res N (pole om E K) (.inr a, false) = r2
    have := I_ne_zero
    field_simp
    ring

/-- Weight of a pole in the difference between two parallel lines. -/
noncomputable def lineWeight (mu : ℝ) (z : ℂ) : ℂ := (if mu < z.im then I / 2 else -(I / 2)) - (if 0 < z.im then I / 2 else -(I / 2))

theorem lineWeight_up {E : ℝ} (hE : 0 < E) (r mu : ℝ) : lineWeight mu (r + I * E) = -(I * (if E > mu then 0 else 1)) := by
  have : (r + I * E : ℂ).im = E := by simp
  rw [lineWeight, this, if_pos hE]
  split_ifs <;> simp; ring

theorem lineWeight_down {E : ℝ} (hE : 0 < E) (r : ℝ) {mu : ℝ} (h : E ≠ -mu) : lineWeight mu (r - I * E) = I * (if E > -mu then 0 else 1) := by
  have : (r - I * E : ℂ).im = -E := by simp
  rw [lineWeight, this, if_neg (show ¬ (0 : ℝ) < -E by linarith)]
  rcases lt_or_gt_of_ne h with h1 | h1
  · rw [if_pos (by linarith), if_neg (by linarith)]; ring
  · rw [if_neg (by linarith), if_pos (by linarith)]; ring

/-- Difference between the integrals over two parallel lines. -/
theorem IsLoop.line_sub_line (h : IsLoop om E K N F) (hE : ∀ a, 0 < E a) (hK : ∀ b, 0 < K b) (iE : Function.Injective E)
    (iK : Function.Injective K) (ho : om ≠ 0) (hN : N.natDegree + 2 ≤ 2 * (Fintype.card A + Fintype.card B))
    {mu : ℝ} (hc : ∀ i, (pole om E K i).im ≠ mu) :
    (Integrable fun w : ℝ => F (w + I * mu)) ∧ (Integrable fun w : ℝ => F w) ∧
    Spec.denseMinusVacuum F mu = poleSum F om E K (lineWeight mu) := by
  have hi := pole_injective hE hK iE iK ho
  have hr : ∀ w : ℝ, F w = ∑ j, res N (pole om E K) j / (w - pole om E K j) := fun w =>
    h.fractions hE hK iE iK ho hN (ne_pole_of_im (w := w) (by simpa using pole_im_ne hE hK))
  have hl : ∀ w : ℝ, F (w + I * mu) = ∑ j, res N (pole om E K) j / (w - (pole om E K j - I * mu)) := fun w => by
    rw [h.fractions hE hK iE iK ho hN (ne_pole_of_im (w := w + I * mu) (by simpa using hc))]
    refine Finset.sum_congr rfl fun j _ => ?_
    congr 1; ring
  have hs : ∑ j, res N (pole om E K) j = 0 := sum_res hi (by simpa [mul_comm] using hN)
  have hz : ∀ j ∈ Finset.univ, (pole om E K j - I * mu).im ≠ 0 := fun j _ => by
    simp [sub_ne_zero]; exact hc j
  rw [Spec.denseMinusVacuum]
  simp only [hl, hr]
  refine ⟨integrable_sum_poles hz hs, integrable_sum_poles (fun j _ => pole_im_ne hE hK j) hs, ?_⟩
  rw [integral_sum_poles hz hs, integral_sum_poles (fun j _ => pole_im_ne hE hK j) hs, ← h.residues hE hK iE iK ho hN, Finset.mul_sum, Finset.mul_sum,
    ← Finset.sum_sub_distrib]
  refine Finset.sum_congr rfl fun j _ => ?_
  have hp : (π : ℂ) ≠ 0 := by exact_mod_cast Real.pi_ne_zero
  have e : (pole om E K j - I * mu).im = (pole om E K j).im - mu := by simp
  rw [e, lineWeight]
  simp only [sub_pos]
  split_ifs <;> field_simp <;> ring

/-- Fermionic frequencies. -/
theorem IsLoop.fermi (h : IsLoop om E K N F) (hE : ∀ a, 0 < E a) (hK : ∀ b, 0 < K b) (iE : Function.Injective E)
    (iK : Function.Injective K) (ho : om ≠ 0) (hN : N.natDegree + 2 ≤ 2 * (Fintype.card A + Fintype.card B))
    {beta : ℝ} (hb : 0 < beta) {mu : ℝ} (hc : ∀ i, (pole om E K i).im ≠ mu) :
    (Summable fun n : ℤ => F (Spec.quarkFrequency beta mu n)) ∧ (Integrable fun w : ℝ => F w) ∧
    Spec.quarkSumMinusIntegral F beta mu = poleSum F om E K (weight beta (π / beta + I * mu)) := by
  have e : ∀ n : ℤ, Spec.quarkFrequency beta mu n = 2 * π * n / beta + (π / beta + I * mu) := fun n => by
    rw [Spec.quarkFrequency]; ring
  have im : ((π : ℂ) / beta + I * mu).im = mu := by
    rw [← Complex.ofReal_div]; simp
  have key := h.sum_sub_integral hE hK iE iK ho hN hb (c := π / beta + I * mu) (by rw [im]; exact hc)
  rw [Spec.quarkSumMinusIntegral]
  simp only [e]
  exact key

end loop

end Qcd.Matsubara
