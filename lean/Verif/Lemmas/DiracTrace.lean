import Mathlib.Tactic.LinearCombination
import Verif.Spec.QuarkDiagram

/-! # Traces of Dirac matrices -/

namespace Qcd
open Matrix
open Spec (Vec msq slash IsClifford quarkPropagator quarkDiagram)

variable {g : Fin 4 → Matrix (Fin 4) (Fin 4) ℂ}

theorem slash_mul_slash (g : Fin 4 → Matrix (Fin 4) (Fin 4) ℂ) (a b : Vec) : slash g a * slash g b = ∑ i, ∑ j, (a i * b j) • (g i * g j) := by
  simp only [slash, Finset.sum_mul, Finset.mul_sum, smul_mul_smul_comm]
  rw [Finset.sum_comm]

theorem two_matrix : (2 : Matrix (Fin 4) (Fin 4) ℂ) = (2 : ℂ) • 1 := by
  rw [two_smul]; exact one_add_one_eq_two.symm

theorem slash_anticomm (h : IsClifford g) (a b : Vec) : slash g a * slash g b + slash g b * slash g a = (2 * (a ⬝ᵥ b)) • 1 := by
  rw [slash_mul_slash, slash_mul_slash, Finset.sum_comm (s := Finset.univ) (t := Finset.univ) (f := fun i j => (b i * a j) • (g i * g j)),
    ← Finset.sum_add_distrib]
  have : ∀ i, ∑ j, (a i * b j) • (g i * g j) + ∑ j, (b j * a i) • (g j * g i) = (2 * (a i * b i)) • (1 : Matrix (Fin 4) (Fin 4) ℂ) := by
    intro i
    rw [← Finset.sum_add_distrib, Finset.sum_eq_single i]
    · rw [mul_comm (b i), ← smul_add, h i i, if_pos rfl, two_matrix, smul_smul, mul_comm 2]
    · intro j _ hj
      rw [mul_comm (b j), ← smul_add, h i j, if_neg (Ne.symm hj), smul_zero]
    · simp
  simp only [this]
  rw [← Finset.sum_smul, dotProduct, Finset.mul_sum]

theorem slash_sq (h : IsClifford g) (a : Vec) : slash g a * slash g a = (a ⬝ᵥ a) • 1 := by
  have := slash_anticomm h a a
  rw [← two_smul ℂ, mul_smul] at this
  exact smul_right_injective _ (two_ne_zero) this

theorem trace_gamma (h : IsClifford g) (i : Fin 4) : trace (g i) = 0 := by
  obtain ⟨j, hj⟩ : ∃ j : Fin 4, j ≠ i := exists_ne i
  have h1 : g j * g j = 1 := by
    have := h j j
    rw [if_pos rfl, ← two_smul ℂ] at this
    exact smul_right_injective _ (two_ne_zero (α := ℂ)) (this.trans two_matrix)
  have h2 : g j * g i = -(g i * g j) := by
    have := h j i
    rw [if_neg hj] at this
    exact eq_neg_of_add_eq_zero_left this
  have h3 : trace (g j * g i * g j) = trace (g i) := by
    rw [trace_mul_comm, ← mul_assoc, h1, one_mul]
  rw [h2, neg_mul, mul_assoc, h1, mul_one, trace_neg] at h3
  have : (2 : ℂ) * trace (g i) = 0 := by linear_combination -h3
  simpa using this

theorem trace_slash (h : IsClifford g) (a : Vec) : trace (slash g a) = 0 := by
  simp [slash, trace_sum, trace_gamma h]

theorem trace_slash_mul (h : IsClifford g) (a b : Vec) : trace (slash g a * slash g b) = 4 * (a ⬝ᵥ b) := by
  have h1 := congrArg trace (slash_anticomm h a b)
  rw [trace_add, trace_mul_comm (slash g b), trace_smul, trace_one] at h1
  simp at h1
  linear_combination h1 / 2

theorem quarkPropagator_eq (h : IsClifford g) {m : ℝ} {Q : Vec} (hQ : msq Q + (m : ℂ) ^ 2 ≠ 0) :
    quarkPropagator g m Q = (msq Q + (m : ℂ) ^ 2)⁻¹ • ((m : ℂ) • (1 : Matrix (Fin 4) (Fin 4) ℂ) - Complex.I • slash g Q) := by
  refine Matrix.inv_eq_right_inv ?_
  rw [mul_smul_comm, add_mul, mul_sub, mul_sub]
  simp only [smul_mul_smul_comm, slash_sq h, mul_one, one_mul, Complex.I_mul_I]
  rw [← msq]
  have : (Complex.I * ↑m) • slash g Q - (-1 : ℂ) • msq Q • (1 : Matrix (Fin 4) (Fin 4) ℂ) + ((m * m : ℂ) • 1 - (m * Complex.I) • slash g Q)
      = (msq Q + (m : ℂ) ^ 2) • 1 := by
    rw [mul_comm Complex.I, pow_two, add_smul, neg_smul, one_smul]; abel
  rw [this, smul_smul, inv_mul_cancel₀ hQ, one_smul]

theorem quarkDiagram_closed (h : IsClifford g) (nc : ℝ) {e P : Vec} (he : e ⬝ᵥ e = 1) (heP : e ⬝ᵥ P = 0) {m : ℝ} {Q : Vec}
    (hx : msq Q + (m : ℂ) ^ 2 ≠ 0) (hy : msq (P + Q) + (m : ℂ) ^ 2 ≠ 0) :
    quarkDiagram g nc e P m Q = -(2 / nc) * (2 * (e ⬝ᵥ Q) ^ 2 - ((msq Q + msq (P + Q) - msq P) / 2 + (m : ℂ) ^ 2))
      / ((msq Q + (m : ℂ) ^ 2) * (msq (P + Q) + (m : ℂ) ^ 2)) := by
  have e1 : slash g e * slash g Q * slash g e = (2 * (e ⬝ᵥ Q)) • slash g e - slash g Q := by
    have := eq_sub_of_add_eq (slash_anticomm h e Q)
    rw [this, sub_mul, mul_assoc, slash_sq h, he, one_smul, mul_one, smul_mul_assoc, one_mul]
  have e2 : trace (slash g e * ((m : ℂ) • (1 : Matrix (Fin 4) (Fin 4) ℂ) - Complex.I • slash g Q) * slash g e
      * ((m : ℂ) • (1 : Matrix (Fin 4) (Fin 4) ℂ) - Complex.I • slash g (P + Q))) = 4 * (m : ℂ) ^ 2 - 8 * (e ⬝ᵥ Q) * (e ⬝ᵥ (P + Q)) + 4 * (Q ⬝ᵥ (P + Q)) := by
    have e3 : slash g e * ((m : ℂ) • (1 : Matrix (Fin 4) (Fin 4) ℂ) - Complex.I • slash g Q) * slash g e
        = (m : ℂ) • 1 - Complex.I • ((2 * (e ⬝ᵥ Q)) • slash g e - slash g Q) := by
      rw [mul_sub, sub_mul, mul_smul_comm, mul_one, smul_mul_assoc, slash_sq h, he, one_smul, mul_smul_comm, smul_mul_assoc, e1]
    rw [e3, sub_mul, mul_sub, mul_sub]
    simp only [trace_sub, trace_smul, smul_mul_assoc, mul_smul_comm, one_mul, mul_one, sub_mul, trace_slash h, trace_slash_mul h, trace_one, smul_eq_mul, mul_zero]
    simp
    linear_combination (2 * (e ⬝ᵥ Q) * (4 * (e ⬝ᵥ P + e ⬝ᵥ Q)) - 4 * (Q ⬝ᵥ P + Q ⬝ᵥ Q)) * Complex.I_sq
  have e4 : Q ⬝ᵥ (P + Q) = (msq Q + msq (P + Q) - msq P) / 2 := by
    simp only [msq, dotProduct_add, add_dotProduct, dotProduct_comm P Q]; ring
  have e5 : e ⬝ᵥ (P + Q) = e ⬝ᵥ Q := by rw [dotProduct_add, heP, zero_add]
  rw [quarkDiagram, quarkPropagator_eq h hx, quarkPropagator_eq h hy]
  simp only [mul_smul_comm, smul_mul_assoc, trace_smul, smul_eq_mul]
  rw [e2, e4, e5]
  rcases eq_or_ne (nc : ℂ) 0 with h0 | h0
  · simp [h0]
  · field_simp
    ring

end Qcd
