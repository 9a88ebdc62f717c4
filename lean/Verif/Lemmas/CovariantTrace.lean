import Verif.Lemmas.Diagrams
import Verif.Spec.Covariant

/-! # The diagrams in covariant gauges in terms of scalar products -/

namespace Qcd
open Matrix Spec

/-- Ward identity of the three-gluon vertex: the longitudinal line of momentum `Q`. -/
theorem ward_left (e P Q : Vec) (hP : e ⬝ᵥ P = 0) :
    Q ᵥ* threeGluonAt e P Q (-(P + Q)) = (msq P - msq (P + Q)) • e + (e ⬝ᵥ Q) • (P + Q) := by
  rw [threeGluonAt_eq]
  have h1 : msq (P + Q) = msq P + 2 * (P ⬝ᵥ Q) + msq Q := msq_add P Q
  rw [h1]
  ext i
  simp only [vecMul_add, vecMul_vecMulVec, vecMul_smul, vecMul_one, Pi.add_apply, Pi.sub_apply, Pi.smul_apply, smul_eq_mul, Pi.neg_apply,
    dotProduct_sub, dotProduct_add, dotProduct_neg, hP, op_smul_eq_smul, msq, dotProduct_comm Q P, dotProduct_comm Q e]
  ring

/-- The same for the longitudinal line of momentum `P + Q`. -/
theorem ward_right (e P Q : Vec) (hP : e ⬝ᵥ P = 0) :
    threeGluonAt e P Q (-(P + Q)) *ᵥ (P + Q) = (msq P - msq Q) • e + (e ⬝ᵥ Q) • Q := by
  rw [threeGluonAt_eq]
  ext i
  simp only [add_mulVec, vecMulVec_mulVec, smul_mulVec, one_mulVec, Pi.add_apply, Pi.sub_apply, Pi.smul_apply, smul_eq_mul, Pi.neg_apply,
    dotProduct_sub, dotProduct_add, dotProduct_neg, sub_dotProduct, hP, op_smul_eq_smul, msq, dotProduct_comm Q P, dotProduct_comm Q e]
  ring

theorem trace_long_left (G T : Matrix (Fin 4) (Fin 4) ℂ) (Q : Vec) :
    trace (Gᵀ * longProjector Q * G * T) = (msq Q)⁻¹ * ((Q ᵥ* G) ⬝ᵥ (T *ᵥ (Q ᵥ* G))) := by
  have : Gᵀ * longProjector Q * G * T = (msq Q)⁻¹ • vecMulVec (Q ᵥ* G) ((Q ᵥ* G) ᵥ* T) := by
    rw [longProjector, Matrix.mul_smul, Matrix.smul_mul, Matrix.smul_mul, mul_vecMulVec, vecMulVec_mul, vecMulVec_mul, mulVec_transpose]
  rw [this, trace_smul, trace_vecMulVec, smul_eq_mul, dotProduct_comm (Q ᵥ* G), ← dotProduct_mulVec]

theorem trace_long_right (G T : Matrix (Fin 4) (Fin 4) ℂ) (R : Vec) :
    trace (Gᵀ * T * G * longProjector R) = (msq R)⁻¹ * ((G *ᵥ R) ⬝ᵥ (T *ᵥ (G *ᵥ R))) := by
  have : Gᵀ * T * G * longProjector R = (msq R)⁻¹ • vecMulVec ((Gᵀ * T) *ᵥ (G *ᵥ R)) R := by
    rw [longProjector, Matrix.mul_smul, mul_vecMulVec, mulVec_mulVec]
  rw [this, trace_smul, trace_vecMulVec, smul_eq_mul, ← mulVec_mulVec, mulVec_transpose, ← dotProduct_mulVec, dotProduct_comm]

theorem projector_quad (Q u : Vec) : u ⬝ᵥ (projector Q *ᵥ u) = msq u - (msq Q)⁻¹ * (u ⬝ᵥ Q) ^ 2 := by
  rw [projector_mulVec, dotProduct_sub, dotProduct_smul, smul_eq_mul, dotProduct_comm Q u]
  simp only [msq]
  ring

theorem long_quad (Q u : Vec) : u ⬝ᵥ (longProjector Q *ᵥ u) = (msq Q)⁻¹ * (u ⬝ᵥ Q) ^ 2 := by
  rw [longProjector, smul_mulVec, vecMulVec_mulVec, dotProduct_smul, op_smul_eq_smul, dotProduct_smul, smul_eq_mul, smul_eq_mul, dotProduct_comm Q u]
  ring

theorem covariantLoop_closed (xi : ℝ) {e P : Vec} (he : e ⬝ᵥ e = 1) (hP : e ⬝ᵥ P = 0) (M : ℂ) {Q : Vec} (hx : msq Q ≠ 0) (hy : msq (P + Q) ≠ 0) :
    covariantLoop xi e P M Q = gluonLoop e P M Q
      + xi / 2 * ((msq (P + Q) - msq P) ^ 2 * (1 - (e ⬝ᵥ Q) ^ 2 / msq (P + Q)) / ((msq (P + Q) + M) * msq Q ^ 2)
        + (msq Q - msq P) ^ 2 * (1 - (e ⬝ᵥ Q) ^ 2 / msq Q) / ((msq Q + M) * msq (P + Q) ^ 2))
      + xi ^ 2 / 2 * (msq P ^ 2 * (e ⬝ᵥ Q) ^ 2 / (msq Q ^ 2 * msq (P + Q) ^ 2)) := by
  have h1 := trace_long_left (threeGluonAt e P Q (-(P + Q))) (projector (P + Q)) Q
  have h2 := trace_long_right (threeGluonAt e P Q (-(P + Q))) (projector Q) (P + Q)
  have h3 := trace_long_left (threeGluonAt e P Q (-(P + Q))) (longProjector (P + Q)) Q
  have cQe : Q ⬝ᵥ e = e ⬝ᵥ Q := dotProduct_comm _ _
  have cPe : P ⬝ᵥ e = 0 := by rw [dotProduct_comm, hP]
  have h4 := msq_add P Q
  have cQP := dotProduct_comm Q P
  rw [ward_left e P Q hP, projector_quad] at h1
  rw [ward_right e P Q hP, projector_quad] at h2
  rw [ward_left e P Q hP, long_quad] at h3
  have d1 : ((msq P - msq (P + Q)) • e + (e ⬝ᵥ Q) • (P + Q)) ⬝ᵥ (P + Q) = msq P * (e ⬝ᵥ Q) := by
    rw [add_dotProduct, smul_dotProduct, smul_dotProduct, dotProduct_add e, hP, ← msq, smul_eq_mul, smul_eq_mul]
    ring
  have d2 : msq ((msq P - msq (P + Q)) • e + (e ⬝ᵥ Q) • (P + Q)) =
      (msq P - msq (P + Q)) ^ 2 + 2 * (msq P - msq (P + Q)) * (e ⬝ᵥ Q) ^ 2 + (e ⬝ᵥ Q) ^ 2 * msq (P + Q) := by
    have h5 : (P + Q) ⬝ᵥ e = e ⬝ᵥ Q := by rw [add_dotProduct, cPe, cQe, zero_add]
    have h6 : e ⬝ᵥ (P + Q) = e ⬝ᵥ Q := by rw [dotProduct_add, hP, zero_add]
    generalize P + Q = R at *
    rw [msq]
    simp only [add_dotProduct, dotProduct_add, smul_dotProduct, dotProduct_smul, smul_eq_mul, he, h5, h6]
    rw [← msq]
    ring
  have d3 : ((msq P - msq Q) • e + (e ⬝ᵥ Q) • Q) ⬝ᵥ Q = msq P * (e ⬝ᵥ Q) := by
    rw [add_dotProduct, smul_dotProduct, smul_dotProduct, ← msq, smul_eq_mul, smul_eq_mul]
    ring
  have d4 : msq ((msq P - msq Q) • e + (e ⬝ᵥ Q) • Q) = (msq P - msq Q) ^ 2 + 2 * (msq P - msq Q) * (e ⬝ᵥ Q) ^ 2 + (e ⬝ᵥ Q) ^ 2 * msq Q := by
    rw [msq]
    simp only [add_dotProduct, dotProduct_add, smul_dotProduct, dotProduct_smul, smul_eq_mul, he, cQe]
    rw [← msq]
    ring
  rw [d1, d2] at h1
  rw [d3, d4] at h2
  rw [d1] at h3
  have e1 : covariantLoop xi e P M Q = gluonLoop e P M Q
      + xi / 2 * ((msq Q)⁻¹ * (msq (P + Q) + M)⁻¹ * trace ((threeGluonAt e P Q (-(P + Q)))ᵀ * longProjector Q * threeGluonAt e P Q (-(P + Q)) * projector (P + Q))
        + (msq Q + M)⁻¹ * (msq (P + Q))⁻¹ * trace ((threeGluonAt e P Q (-(P + Q)))ᵀ * projector Q * threeGluonAt e P Q (-(P + Q)) * longProjector (P + Q)))
      + xi ^ 2 / 2 * ((msq Q)⁻¹ * (msq (P + Q))⁻¹
        * trace ((threeGluonAt e P Q (-(P + Q)))ᵀ * longProjector Q * threeGluonAt e P Q (-(P + Q)) * longProjector (P + Q))) := by
    simp only [covariantLoop, covariantPropagator, gluonLoop, Matrix.mul_add, Matrix.add_mul, Matrix.mul_smul, Matrix.smul_mul, trace_add, trace_smul, smul_eq_mul,
      div_eq_mul_inv, mul_inv]
    ring
  rw [e1, h1, h2, h3]
  simp only [div_eq_mul_inv, mul_inv]
  generalize (msq Q + M)⁻¹ = a
  generalize (msq (P + Q) + M)⁻¹ = b
  generalize msq (P + Q) = y at *
  generalize msq Q = x at *
  generalize msq P = s at *
  generalize e ⬝ᵥ Q = v at *
  clear h1 h2 h3 e1 d1 d2 d3 d4
  field_simp
  ring

theorem longProjector_transpose (Q : Vec) : (longProjector Q)ᵀ = longProjector Q := by simp [longProjector, transpose_vecMulVec]

theorem trace_longProjector {Q : Vec} (hx : msq Q ≠ 0) : trace (longProjector Q) = 1 := by
  rw [longProjector, trace_smul, trace_vecMulVec, ← msq, smul_eq_mul, inv_mul_cancel₀ hx]

theorem covariantTadpole_closed (xi : ℝ) {e : Vec} (he : e ⬝ᵥ e = 1) (M : ℂ) {Q : Vec} (hx : msq Q ≠ 0) :
    covariantTadpole xi e M Q = gluonTadpole e M Q - xi * ((1 - (e ⬝ᵥ Q) ^ 2 / msq Q) / msq Q) := by
  have ht : (covariantPropagator xi M Q)ᵀ = covariantPropagator xi M Q := by
    rw [covariantPropagator, transpose_add, transpose_smul, transpose_smul, projector_transpose, longProjector_transpose]
  rw [covariantTadpole, gluonTadpole, tadpole_contraction e _ ht, tadpole_contraction e _ (projector_transpose Q), covariantPropagator, trace_add, trace_smul,
    trace_smul, add_mulVec, smul_mulVec, smul_mulVec, dotProduct_add, dotProduct_smul, dotProduct_smul, trace_longProjector hx, long_quad, he]
  simp only [smul_eq_mul]
  ring

theorem covariantGhost_closed (xi : ℝ) (P : Vec) (M : ℂ) (Q : Vec) :
    covariantGhost xi P M Q = ghostSelfEnergy P M Q - xi * ((P ⬝ᵥ Q) * (Q ⬝ᵥ (P + Q)) / (msq Q ^ 2 * msq (P + Q))) := by
  rw [covariantGhost, ghostSelfEnergy, covariantPropagator, add_mulVec, smul_mulVec, smul_mulVec, dotProduct_add, dotProduct_smul, dotProduct_smul, longProjector,
    smul_mulVec, vecMulVec_mulVec, dotProduct_smul, op_smul_eq_smul, dotProduct_smul]
  simp only [smul_eq_mul, div_eq_mul_inv, mul_inv, ← inv_pow]
  ring

end Qcd
