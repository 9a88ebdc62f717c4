import Mathlib.Tactic.LinearCombination
import Mathlib.Tactic.FieldSimp
import Mathlib.Tactic.Ring
import Verif.Lemmas.Angular
import Verif.Spec.Diagrams

/-! # The one-loop diagrams in terms of scalar products -/

namespace Qcd
open Matrix Spec

theorem threeGluonAt_eq (e P Q K : Vec) :
    threeGluonAt e P Q K = vecMulVec e (P - Q) + (e ⬝ᵥ (Q - K)) • (1 : Matrix (Fin 4) (Fin 4) ℂ) + vecMulVec (K - P) e := by
  ext j k
  simp only [threeGluonAt, of_apply, threeGluon, mul_add, Finset.sum_add_distrib, Matrix.add_apply, Matrix.smul_apply, vecMulVec_apply, delta,
    Pi.sub_apply, smul_eq_mul, one_apply, dotProduct]
  congr 1
  · congr 1
    · simp
    · by_cases h : j = k <;> simp [h]
  · simp [mul_comm]

/-- The contraction of two three-gluon vertices with two transverse projectors. -/
theorem contraction (e P Q : Vec) (he : e ⬝ᵥ e = 1) (hP : e ⬝ᵥ P = 0) (hx : msq Q ≠ 0) (hy : msq (P + Q) ≠ 0) :
    trace ((threeGluonAt e P Q (-(P + Q)))ᵀ * projector Q * threeGluonAt e P Q (-(P + Q)) * projector (P + Q)) =
      4 * ((e ⬝ᵥ Q) ^ 2 * (2 + (msq Q + msq (P + Q) - msq P) ^ 2 / (4 * msq Q * msq (P + Q)))
        + (msq Q * msq (P + Q) - (msq Q + msq (P + Q) - msq P) ^ 2 / 4) * (1 / msq Q + 1 / msq (P + Q))) := by
  have h1 : msq (P + Q) = msq P + 2 * (P ⬝ᵥ Q) + msq Q := by
    simp only [msq, add_dotProduct, dotProduct_add]; rw [dotProduct_comm Q P]; ring
  have cQP := dotProduct_comm Q P
  have cQe := dotProduct_comm Q e
  have cPe := dotProduct_comm P e
  rw [threeGluonAt_eq]
  simp only [projector]
  obtain ⟨a, ha⟩ : ∃ a, a = (msq Q)⁻¹ := ⟨_, rfl⟩
  obtain ⟨b, hb⟩ : ∃ b, b = (msq (P + Q))⁻¹ := ⟨_, rfl⟩
  have ha' : a * msq Q = 1 := by rw [ha]; field_simp
  have hb' : b * msq (P + Q) = 1 := by rw [hb]; field_simp
  have e1 : (msq Q + msq (P + Q) - msq P) ^ 2 / (4 * msq Q * msq (P + Q)) = (msq Q + msq (P + Q) - msq P) ^ 2 / 4 * a * b := by
    rw [ha, hb]; field_simp
  rw [e1, one_div, one_div, ← ha, ← hb]
  clear ha hb e1 hx hy
  simp only [transpose_add, transpose_vecMulVec, transpose_smul, transpose_one, add_mul, mul_add, sub_mul, mul_sub,
    Matrix.mul_one, Matrix.one_mul, Matrix.smul_mul, Matrix.mul_smul, vecMulVec_mul_vecMulVec, trace_add, trace_sub, trace_smul,
    trace_vecMulVec, trace_one, smul_eq_mul, Fintype.card_fin, vecMulVec_smul, smul_vecMulVec, smul_dotProduct, dotProduct_smul]
  simp only [dotProduct_sub, sub_dotProduct, dotProduct_add, add_dotProduct, dotProduct_neg, neg_dotProduct, he, hP, cQP, cQe, cPe]
  simp only [msq] at *
  simp only [dotProduct_add, add_dotProduct, cQP] at h1 hb' ⊢
  generalize P ⬝ᵥ P = s at *
  generalize P ⬝ᵥ Q = c at *
  generalize Q ⬝ᵥ Q = x at *
  generalize e ⬝ᵥ Q = v at *
  obtain ⟨y, hy⟩ : ∃ y, y = s + 2 * c + x := ⟨_, rfl⟩
  have hc : c = (y - s - x) / 2 := by rw [hy]; ring
  rw [show s + c + (c + x) = y by rw [hy]; ring] at hb' ⊢
  have hx0 : x ≠ 0 := right_ne_zero_of_mul_eq_one ha'
  have hy0 : y ≠ 0 := right_ne_zero_of_mul_eq_one hb'
  have ea : a = 1 / x := eq_div_of_mul_eq hx0 ha'
  have eb : b = 1 / y := eq_div_of_mul_eq hy0 hb'
  clear hy h1 ha' hb' cQP
  subst hc ea eb
  push_cast
  field_simp
  ring

/-! ### Closed forms -/

/-- The contraction as a function of `x = Q²`, `y = (P+Q)²`, `s = P²`, `v = (e·Q)²`. -/
noncomputable def gX (x y s v : ℂ) : ℂ :=
  v * (2 + (x + y - s) ^ 2 / (4 * x * y)) + (x * y - (x + y - s) ^ 2 / 4) * (1 / x + 1 / y)

theorem gX_symm (x y s v : ℂ) : gX x y s v = gX y x s v := by
  simp only [gX]; ring

theorem msq_add (P Q : Vec) : msq (P + Q) = msq P + 2 * (P ⬝ᵥ Q) + msq Q := by
  simp only [msq, add_dotProduct, dotProduct_add]; rw [dotProduct_comm Q P]; ring

theorem msq_neg (Q : Vec) : msq (-Q) = msq Q := by simp [msq]

theorem gluonLoop_closed {e P : Vec} (he : e ⬝ᵥ e = 1) (hP : e ⬝ᵥ P = 0) (M : ℂ) {Q : Vec} (hx : msq Q ≠ 0) (hy : msq (P + Q) ≠ 0) :
    gluonLoop e P M Q = 2 * gX (msq Q) (msq (P + Q)) (msq P) ((e ⬝ᵥ Q) ^ 2) / ((msq Q + M) * (msq (P + Q) + M)) := by
  rw [gluonLoop, contraction e P Q he hP hx hy, gX]
  ring

theorem ghostLoop_closed {e P : Vec} (hP : e ⬝ᵥ P = 0) (Q : Vec) :
    ghostLoop e P Q = -(e ⬝ᵥ Q) ^ 2 / (msq Q * msq (P + Q)) := by
  rw [ghostLoop, dotProduct_add, hP]; ring

theorem trace_projector {Q : Vec} (hx : msq Q ≠ 0) : trace (projector Q) = 3 := by
  rw [projector, trace_sub, trace_smul, trace_vecMulVec, trace_one, ← msq, smul_eq_mul, inv_mul_cancel₀ hx]
  norm_num

theorem projector_mulVec (Q e : Vec) : projector Q *ᵥ e = e - ((msq Q)⁻¹ * (Q ⬝ᵥ e)) • Q := by
  rw [projector, sub_mulVec, one_mulVec, smul_mulVec, vecMulVec_mulVec]
  ext i; simp; ring

theorem tadpole_contraction (e : Vec) (t : Matrix (Fin 4) (Fin 4) ℂ) (ht : tᵀ = t) :
    (∑ i, ∑ j, ∑ k, ∑ l, e i * e j * (delta i j * delta k l - (delta i l * delta j k + delta i k * delta j l) / 2) * t k l) =
      (e ⬝ᵥ e) * trace t - e ⬝ᵥ (t *ᵥ e) := by
  have h1 : ∀ i j : Fin 4, (∑ k, ∑ l, e i * e j * (delta i j * delta k l - (delta i l * delta j k + delta i k * delta j l) / 2) * t k l) =
      e i * e j * delta i j * trace t - e i * e j * t i j := by
    intro i j
    have ht' : t j i = t i j := congrFun (congrFun ht i) j
    have a1 : ∑ k, ∑ l, delta k l * t k l = trace t := by
      simp [delta, trace]
    have a2 : ∑ k, ∑ l, delta i l * delta j k * t k l = t i j := by
      simp [delta, ht']
    have a3 : ∑ k, ∑ l, delta i k * delta j l * t k l = t i j := by
      simp [delta]
    have : ∀ k l, e i * e j * (delta i j * delta k l - (delta i l * delta j k + delta i k * delta j l) / 2) * t k l =
        e i * e j * delta i j * (delta k l * t k l) - e i * e j / 2 * (delta i l * delta j k * t k l)
          - e i * e j / 2 * (delta i k * delta j l * t k l) := fun k l => by ring
    simp only [this, Finset.sum_sub_distrib, ← Finset.mul_sum, a1, a2, a3]
    ring
  simp only [h1, Finset.sum_sub_distrib]
  congr 1
  · simp [delta, dotProduct, Finset.sum_mul]
  · simp [dotProduct, mulVec, Finset.mul_sum]
    refine Finset.sum_congr rfl fun i _ => Finset.sum_congr rfl fun j _ => ?_
    ring

theorem projector_transpose (Q : Vec) : (projector Q)ᵀ = projector Q := by
  simp [projector, transpose_vecMulVec]

theorem gluonTadpole_closed {e : Vec} (he : e ⬝ᵥ e = 1) (M : ℂ) {Q : Vec} (hx : msq Q ≠ 0) :
    gluonTadpole e M Q = -(2 + (e ⬝ᵥ Q) ^ 2 / msq Q) / (msq Q + M) := by
  rw [gluonTadpole, tadpole_contraction e _ (projector_transpose Q), trace_projector hx, projector_mulVec, dotProduct_sub,
    dotProduct_smul, he, dotProduct_comm Q e, smul_eq_mul]
  ring

/-- The ghost self-energy as a function of the same variables. -/
noncomputable def hX (x y s : ℂ) : ℂ := s - (y - x - s) ^ 2 / (4 * x)

theorem ghostSelfEnergy_closed (P : Vec) (M : ℂ) {Q : Vec} (hx : msq Q ≠ 0) :
    ghostSelfEnergy P M Q = -hX (msq Q) (msq (P + Q)) (msq P) / ((msq Q + M) * msq (P + Q)) := by
  have h1 := msq_add P Q
  rw [ghostSelfEnergy, projector_mulVec, dotProduct_sub, dotProduct_smul, dotProduct_add, dotProduct_add, dotProduct_comm Q P, smul_eq_mul,
    hX, ← msq, ← msq, show msq (P + Q) - msq Q - msq P = 2 * (P ⬝ᵥ Q) by rw [h1]; ring]
  congr 2
  field_simp
  ring

/-! ### Kinematics -/

theorem msq_loop (q0 : ℂ) (q : ℝ) {z : ℝ} (hz : z ∈ Set.Icc (-1 : ℝ) 1) : msq (loopMomentum q0 q z) = q0 ^ 2 + (q : ℂ) ^ 2 := by
  have h : ((Real.sqrt (1 - z ^ 2) : ℝ) : ℂ) ^ 2 = 1 - (z : ℂ) ^ 2 := by
    rw [← Complex.ofReal_pow, Real.sq_sqrt (by nlinarith [hz.1, hz.2])]; push_cast; ring
  simp only [msq, loopMomentum, dotProduct, Fin.sum_univ_four]
  simp
  linear_combination (q : ℂ) ^ 2 * h

theorem msq_external (om p : ℂ) : msq (external om p) = om ^ 2 + p ^ 2 := by
  simp only [msq, external, dotProduct, Fin.sum_univ_four]
  simp; ring

theorem msq_sum (q0 : ℂ) (q : ℝ) (om p : ℂ) {z : ℝ} (hz : z ∈ Set.Icc (-1 : ℝ) 1) :
    msq (external om p + loopMomentum q0 q z) = den q0 q om p 0 z := by
  rw [msq_add, msq_loop q0 q hz, msq_external, den]
  simp only [external, loopMomentum, dotProduct, Fin.sum_univ_four]
  simp; ring

/-- A list of polarisations orthogonal to the external momentum, with the average `V` of `(e·Q)²`. -/
structure Polarised (pol : List Vec) (om p : ℂ) (q : ℝ) (V : ℂ → ℝ → ℂ) : Prop where
  ne : pol ≠ []
  unit : ∀ e ∈ pol, e ⬝ᵥ e = 1
  orth : ∀ e ∈ pol, e ⬝ᵥ external om p = 0
  avg : ∀ q0 : ℂ, ∀ z ∈ Set.Icc (-1 : ℝ) 1, average pol (fun e => (e ⬝ᵥ loopMomentum q0 q z) ^ 2) = V q0 z
  cont0 : ∀ z : ℝ, Continuous fun w => V w z
  cont : ∀ w : ℂ, Continuous fun z => V w z

theorem polL_polarised {om p : ℂ} (hs : om ^ 2 + p ^ 2 ≠ 0) (q : ℝ) : Polarised (polL om p) om p q (longitudinal q om p) where
  ne := by simp [polL]
  unit := by
    intro e he
    simp only [polL, List.mem_singleton] at he
    have h2 : ((om ^ 2 + p ^ 2) ^ ((1 : ℂ) / 2)) ^ 2 = om ^ 2 + p ^ 2 := by
      rw [← Complex.cpow_nat_mul]; norm_num
    have h0 : (om ^ 2 + p ^ 2) ^ ((1 : ℂ) / 2) ≠ 0 := fun h => hs (by rw [← h2, h]; ring)
    rw [he, smul_dotProduct, dotProduct_smul]
    generalize (om ^ 2 + p ^ 2) ^ ((1 : ℂ) / 2) = r at *
    simp only [dotProduct, Fin.sum_univ_four]
    simp
    field_simp
    linear_combination -h2
  orth := by
    intro e he
    simp only [polL, List.mem_singleton] at he
    rw [he, smul_dotProduct]
    simp only [external, dotProduct, Fin.sum_univ_four]
    simp; right; ring
  avg := by
    intro q0 z _
    have h2 : ((om ^ 2 + p ^ 2) ^ ((1 : ℂ) / 2)) ^ 2 = om ^ 2 + p ^ 2 := by
      rw [← Complex.cpow_nat_mul]; norm_num
    simp only [average, polL, List.map_cons, List.map_nil, List.sum_cons, List.sum_nil, smul_dotProduct, smul_eq_mul, mul_pow, inv_pow, h2,
      longitudinal, loopMomentum]
    simp only [dotProduct, Fin.sum_univ_four]
    simp
    ring
  cont0 := by intro z; unfold longitudinal; fun_prop
  cont := by intro w; unfold longitudinal; fun_prop

theorem polT_polarised (om p : ℂ) (q : ℝ) : Polarised polT om p q (transverse q) where
  ne := by simp [polT]
  unit := by
    intro e he
    simp only [polT, List.mem_cons, List.not_mem_nil, or_false] at he
    rcases he with rfl | rfl <;> simp [dotProduct, Fin.sum_univ_four]
  orth := by
    intro e he
    simp only [polT, List.mem_cons, List.not_mem_nil, or_false] at he
    rcases he with rfl | rfl <;> simp [dotProduct, Fin.sum_univ_four, external]
  avg := by
    intro q0 z hz
    have h : ((Real.sqrt (1 - z ^ 2) : ℝ) : ℂ) ^ 2 = 1 - (z : ℂ) ^ 2 := by
      rw [← Complex.ofReal_pow, Real.sq_sqrt (by nlinarith [hz.1, hz.2])]; push_cast; ring
    simp only [average, polT, List.map_cons, List.map_nil, List.sum_cons, List.sum_nil, transverse, loopMomentum]
    simp only [dotProduct, Fin.sum_univ_four]
    simp
    linear_combination (q : ℂ) ^ 2 * h
  cont0 := by intro z; unfold transverse; fun_prop
  cont := by intro w; unfold transverse; fun_prop

theorem average_affine {l : List Vec} (hl : l ≠ []) (f F : Vec → ℂ) (a b : ℂ) (h : ∀ e ∈ l, F e = a * f e + b) :
    average l F = a * average l f + b := by
  have h1 : (l.map F).sum = a * (l.map f).sum + l.length * b := by
    clear hl
    induction l with
    | nil => simp
    | cons x l ih =>
      have := ih fun e he => h e (List.mem_cons_of_mem _ he)
      simp only [List.map_cons, List.sum_cons, this, h x List.mem_cons_self, List.length_cons]
      push_cast; ring
  have h0 : (l.length : ℂ) ≠ 0 := by
    have : 0 < l.length := List.length_pos_iff.2 hl
    exact_mod_cast this.ne'
  rw [average, average, h1]
  field_simp

section closed
variable {pol : List Vec} {om p : ℂ} {q : ℝ} {V : ℂ → ℝ → ℂ}

theorem Polarised.gluonLoop (h : Polarised pol om p q V) (M q0 : ℂ) {z : ℝ} (hz : z ∈ Set.Icc (-1 : ℝ) 1)
    (hx : q0 ^ 2 + (q : ℂ) ^ 2 ≠ 0) (hy : den q0 q om p 0 z ≠ 0) :
    average pol (fun e => gluonLoop e (external om p) M (loopMomentum q0 q z)) =
      2 * gX (q0 ^ 2 + (q : ℂ) ^ 2) (den q0 q om p 0 z) (om ^ 2 + p ^ 2) (V q0 z) / ((q0 ^ 2 + (q : ℂ) ^ 2 + M) * (den q0 q om p 0 z + M)) := by
  have hx' := msq_loop q0 q hz
  have hy' := msq_sum q0 q om p hz
  have := average_affine h.ne (fun e => (e ⬝ᵥ loopMomentum q0 q z) ^ 2) (fun e => Spec.gluonLoop e (external om p) M (loopMomentum q0 q z))
    (2 * (2 + (q0 ^ 2 + (q : ℂ) ^ 2 + den q0 q om p 0 z - (om ^ 2 + p ^ 2)) ^ 2 / (4 * (q0 ^ 2 + (q : ℂ) ^ 2) * den q0 q om p 0 z))
      / ((q0 ^ 2 + (q : ℂ) ^ 2 + M) * (den q0 q om p 0 z + M)))
    (2 * gX (q0 ^ 2 + (q : ℂ) ^ 2) (den q0 q om p 0 z) (om ^ 2 + p ^ 2) 0 / ((q0 ^ 2 + (q : ℂ) ^ 2 + M) * (den q0 q om p 0 z + M)))
    (fun e he => by
      rw [gluonLoop_closed (h.unit e he) (h.orth e he) M (hx' ▸ hx) (hy' ▸ hy), hx', hy', msq_external, gX, gX]
      ring)
  rw [this, h.avg q0 z hz, gX, gX]
  ring

theorem shift_sum (P Q : Vec) : P + -(P + Q) = -Q := by ext i; simp

theorem Polarised.gluonLoop_shift (h : Polarised pol om p q V) (M q0 : ℂ) {z : ℝ} (hz : z ∈ Set.Icc (-1 : ℝ) 1)
    (hx : q0 ^ 2 + (q : ℂ) ^ 2 ≠ 0) (hy : den q0 q om p 0 z ≠ 0) :
    average pol (fun e => Spec.gluonLoop e (external om p) M (-(external om p + loopMomentum q0 q z))) =
      2 * gX (q0 ^ 2 + (q : ℂ) ^ 2) (den q0 q om p 0 z) (om ^ 2 + p ^ 2) (V q0 z) / ((q0 ^ 2 + (q : ℂ) ^ 2 + M) * (den q0 q om p 0 z + M)) := by
  rw [← h.gluonLoop M q0 hz hx hy]
  have hx' := msq_loop q0 q hz
  have hy' := msq_sum q0 q om p hz
  have key : ∀ e ∈ pol, Spec.gluonLoop e (external om p) M (-(external om p + loopMomentum q0 q z)) =
      Spec.gluonLoop e (external om p) M (loopMomentum q0 q z) := by
    intro e he
    rw [gluonLoop_closed (h.unit e he) (h.orth e he) M (by rwa [msq_neg, hy']) (by rwa [shift_sum, msq_neg, hx']),
      gluonLoop_closed (h.unit e he) (h.orth e he) M (hx' ▸ hx) (hy' ▸ hy), shift_sum, msq_neg, msq_neg, dotProduct_neg, dotProduct_add,
      h.orth e he, zero_add, neg_sq, gX_symm]
    ring
  unfold average
  rw [List.map_congr_left key]

theorem Polarised.ghostLoop (h : Polarised pol om p q V) (q0 : ℂ) {z : ℝ} (hz : z ∈ Set.Icc (-1 : ℝ) 1) :
    average pol (fun e => Spec.ghostLoop e (external om p) (loopMomentum q0 q z)) =
      -V q0 z / ((q0 ^ 2 + (q : ℂ) ^ 2) * den q0 q om p 0 z) := by
  rw [average_affine h.ne (fun e => (e ⬝ᵥ loopMomentum q0 q z) ^ 2) _ (-1 / ((q0 ^ 2 + (q : ℂ) ^ 2) * den q0 q om p 0 z)) 0
    (fun e he => by rw [ghostLoop_closed (h.orth e he), msq_loop q0 q hz, msq_sum q0 q om p hz]; ring), h.avg q0 z hz]
  ring

theorem Polarised.ghostLoop_shift (h : Polarised pol om p q V) (q0 : ℂ) {z : ℝ} (hz : z ∈ Set.Icc (-1 : ℝ) 1) :
    average pol (fun e => Spec.ghostLoop e (external om p) (-(external om p + loopMomentum q0 q z))) =
      -V q0 z / ((q0 ^ 2 + (q : ℂ) ^ 2) * den q0 q om p 0 z) := by
  rw [average_affine h.ne (fun e => (e ⬝ᵥ loopMomentum q0 q z) ^ 2) _ (-1 / ((q0 ^ 2 + (q : ℂ) ^ 2) * den q0 q om p 0 z)) 0
    (fun e he => by
      rw [ghostLoop_closed (h.orth e he), shift_sum, msq_neg, msq_neg, dotProduct_neg, dotProduct_add, h.orth e he, msq_loop q0 q hz,
        msq_sum q0 q om p hz]
      ring), h.avg q0 z hz]
  ring

theorem Polarised.gluonTadpole (h : Polarised pol om p q V) (M q0 : ℂ) {z : ℝ} (hz : z ∈ Set.Icc (-1 : ℝ) 1)
    (hx : q0 ^ 2 + (q : ℂ) ^ 2 ≠ 0) :
    average pol (fun e => Spec.gluonTadpole e M (loopMomentum q0 q z)) =
      -(2 + V q0 z / (q0 ^ 2 + (q : ℂ) ^ 2)) / (q0 ^ 2 + (q : ℂ) ^ 2 + M) := by
  have hx' := msq_loop q0 q hz
  rw [average_affine h.ne (fun e => (e ⬝ᵥ loopMomentum q0 q z) ^ 2) _
    (-1 / (q0 ^ 2 + (q : ℂ) ^ 2) / (q0 ^ 2 + (q : ℂ) ^ 2 + M)) (-2 / (q0 ^ 2 + (q : ℂ) ^ 2 + M))
    (fun e he => by rw [gluonTadpole_closed (h.unit e he) M (hx' ▸ hx), hx']; ring), h.avg q0 z hz]
  ring

theorem ghostSelfEnergy_at (M q0 : ℂ) {z : ℝ} (hz : z ∈ Set.Icc (-1 : ℝ) 1) (hx : q0 ^ 2 + (q : ℂ) ^ 2 ≠ 0) :
    ghostSelfEnergy (external om p) M (loopMomentum q0 q z) =
      -hX (q0 ^ 2 + (q : ℂ) ^ 2) (den q0 q om p 0 z) (om ^ 2 + p ^ 2) / ((q0 ^ 2 + (q : ℂ) ^ 2 + M) * den q0 q om p 0 z) := by
  have hx' := msq_loop q0 q hz
  rw [ghostSelfEnergy_closed _ M (hx' ▸ hx), hx', msq_sum q0 q om p hz, msq_external]

theorem ghostSelfEnergy_shift (M q0 : ℂ) {z : ℝ} (hz : z ∈ Set.Icc (-1 : ℝ) 1) (hy : den q0 q om p 0 z ≠ 0) :
    ghostSelfEnergy (external om p) M (-(external om p + loopMomentum q0 q z)) =
      -hX (den q0 q om p 0 z) (q0 ^ 2 + (q : ℂ) ^ 2) (om ^ 2 + p ^ 2) / ((den q0 q om p 0 z + M) * (q0 ^ 2 + (q : ℂ) ^ 2)) := by
  have hx' := msq_loop q0 q hz
  have hy' := msq_sum q0 q om p hz
  rw [ghostSelfEnergy_closed _ M (by rwa [msq_neg, hy']), shift_sum, msq_neg, msq_neg, hx', hy', msq_external]

end closed

/-! ### Taking the poles off -/

open Filter Topology in
theorem atPole_eq {F A : ℂ → ℂ} {E w : ℂ} (hw : w ^ 2 + E ^ 2 = 0) (h0 : w ≠ 0) (hA : ContinuousAt A w)
    (hF : ∀ᶠ u in 𝓝 w, u ^ 2 + E ^ 2 ≠ 0 → F u = A u / (u ^ 2 + E ^ 2)) : atPole F E w = A w := by
  refine Tendsto.limUnder_eq ?_
  refine (hA.tendsto.mono_left nhdsWithin_le_nhds).congr' ?_
  have h1 : ∀ᶠ u in 𝓝[≠] w, u ^ 2 + E ^ 2 ≠ 0 := by
    have h2 : ∀ᶠ u in 𝓝 w, u + w ≠ 0 := by
      have : ContinuousAt (fun u => u + w) w := by fun_prop
      exact this.eventually_ne (by rw [← two_mul]; exact mul_ne_zero two_ne_zero h0)
    filter_upwards [h2.filter_mono nhdsWithin_le_nhds, self_mem_nhdsWithin] with u hu hne
    have : u ^ 2 + E ^ 2 = (u - w) * (u + w) := by linear_combination hw
    rw [this]
    exact mul_ne_zero (sub_ne_zero.2 hne) hu
  filter_upwards [h1, hF.filter_mono nhdsWithin_le_nhds] with u hu hF
  rw [hF hu]; field_simp

end Qcd
