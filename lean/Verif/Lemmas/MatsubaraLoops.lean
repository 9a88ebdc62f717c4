import Verif.Lemmas.MatsubaraDiagram
import Verif.Lemmas.DiagramAssembly

/-! # The one-loop diagrams are rational functions of the loop momentum -/

namespace Qcd.Matsubara
open Complex MeasureTheory Set Matrix
open Spec (Vec msq external fourMomentum)
open scoped Real

abbrev Pol := MvPolynomial (Fin 4) ℂ

theorem deg_add {f g : Pol} {d : ℕ} (hf : f.totalDegree ≤ d) (hg : g.totalDegree ≤ d) : (f + g).totalDegree ≤ d :=
  (MvPolynomial.totalDegree_add _ _).trans (max_le hf hg)
theorem deg_sub {f g : Pol} {d : ℕ} (hf : f.totalDegree ≤ d) (hg : g.totalDegree ≤ d) : (f - g).totalDegree ≤ d :=
  (MvPolynomial.totalDegree_sub _ _).trans (max_le hf hg)
theorem deg_mul {f g : Pol} {d e : ℕ} (hf : f.totalDegree ≤ d) (hg : g.totalDegree ≤ e) : (f * g).totalDegree ≤ d + e :=
  (MvPolynomial.totalDegree_mul _ _).trans (add_le_add hf hg)
theorem deg_sq {f : Pol} {d : ℕ} (hf : f.totalDegree ≤ d) : (f ^ 2).totalDegree ≤ 2 * d :=
  (MvPolynomial.totalDegree_pow _ _).trans (Nat.mul_le_mul_left 2 hf)
theorem deg_C (c : ℂ) (d : ℕ) : (MvPolynomial.C c : Pol).totalDegree ≤ d := by simp
theorem deg_X (i : Fin 4) : (MvPolynomial.X i : Pol).totalDegree ≤ 1 := by simp
theorem deg_neg {f : Pol} {d : ℕ} (hf : f.totalDegree ≤ d) : (-f).totalDegree ≤ d := by rwa [MvPolynomial.totalDegree_neg]
theorem deg_sum {g : Fin 4 → Pol} {d : ℕ} (h : ∀ i, (g i).totalDegree ≤ d) : (∑ i, g i).totalDegree ≤ d :=
  MvPolynomial.totalDegree_finsetSum_le fun i _ => h i

/-- `Q²`. -/
noncomputable def pX : Pol := ∑ i, MvPolynomial.X i ^ 2
/-- `(P + Q)²`. -/
noncomputable def pY (P : Vec) : Pol := ∑ i, (MvPolynomial.C (P i) + MvPolynomial.X i) ^ 2

theorem deg_pX : pX.totalDegree ≤ 2 := deg_sum fun i => deg_sq (deg_X i)
theorem deg_pY (P : Vec) : (pY P).totalDegree ≤ 2 := deg_sum fun i => deg_sq (deg_add (deg_C _ _) (deg_X i))

theorem eval_pX (Q : Vec) : MvPolynomial.eval Q pX = msq Q := by
  simp [pX, msq, dotProduct, pow_two]

theorem eval_pY (P Q : Vec) : MvPolynomial.eval Q (pY P) = msq (P + Q) := by
  simp [pY, msq, dotProduct, pow_two]

/-- A polynomial for the average of `(e·Q)²` over the polarisations. -/
structure IsPolar (pol : List Vec) (om p : ℝ) (V : Pol) : Prop where
  ne : pol ≠ []
  unit : ∀ e ∈ pol, e ⬝ᵥ e = 1
  orth : ∀ e ∈ pol, e ⬝ᵥ external om p = 0
  avg : ∀ Q, Spec.average pol (fun e => (e ⬝ᵥ Q) ^ 2) = MvPolynomial.eval Q V
  deg : V.totalDegree ≤ 2
  axis : ∀ q0 v, MvPolynomial.eval (fourMomentum q0 v) V = MvPolynomial.eval (fourMomentum q0 (v.1, √(v.2.1 ^ 2 + v.2.2 ^ 2), 0)) V

noncomputable def pL (om p : ℝ) : Pol :=
  MvPolynomial.C (1 / ((om : ℂ) ^ 2 + (p : ℂ) ^ 2)) * (MvPolynomial.C (p : ℂ) * MvPolynomial.X 0 - MvPolynomial.C (om : ℂ) * MvPolynomial.X 1) ^ 2

noncomputable def pT : Pol := MvPolynomial.C (1 / 2) * (MvPolynomial.X 2 ^ 2 + MvPolynomial.X 3 ^ 2)

theorem isPolar_L {om : ℝ} (ho : om ≠ 0) (p : ℝ) : IsPolar (Spec.polL om p) om p (pL om p) where
  ne := by simp [Spec.polL]
  unit := (polL_polarised (by
    have : om ^ 2 + p ^ 2 ≠ 0 := by positivity
    exact_mod_cast this) 0).unit
  orth := (polL_polarised (by
    have : om ^ 2 + p ^ 2 ≠ 0 := by positivity
    exact_mod_cast this) 0).orth
  avg Q := by
    have h2 : (((om : ℂ) ^ 2 + (p : ℂ) ^ 2) ^ ((1 : ℂ) / 2)) ^ 2 = (om : ℂ) ^ 2 + (p : ℂ) ^ 2 := by
      rw [← Complex.cpow_nat_mul]; norm_num
    simp only [Spec.average, Spec.polL, List.map_cons, List.map_nil, List.sum_cons, List.sum_nil, smul_dotProduct, smul_eq_mul, mul_pow, inv_pow, h2, pL]
    simp only [dotProduct, Fin.sum_univ_four, map_mul, map_sub, map_pow, MvPolynomial.eval_C, MvPolynomial.eval_X]
    simp
    ring_nf
    simp
  deg := by
    refine deg_mul (d := 0) (deg_C _ _) (deg_sq (d := 1) (deg_sub ?_ ?_))
    · exact deg_mul (d := 0) (deg_C _ _) (deg_X 0)
    · exact deg_mul (d := 0) (deg_C _ _) (deg_X 1)
  axis q0 v := by simp [pL, fourMomentum]

theorem isPolar_T (om p : ℝ) : IsPolar Spec.polT om p pT where
  ne := by simp [Spec.polT]
  unit := (polT_polarised (om : ℂ) p 0).unit
  orth := (polT_polarised (om : ℂ) p 0).orth
  avg Q := by
    simp only [Spec.average, Spec.polT, List.map_cons, List.map_nil, List.sum_cons, List.sum_nil, pT]
    simp [dotProduct, Fin.sum_univ_four]
    ring
  deg := deg_mul (d := 0) (deg_C _ _) (deg_add (deg_sq (deg_X 2)) (deg_sq (deg_X 3)))
  axis q0 v := by
    simp only [pT, fourMomentum, map_mul, map_add, map_pow, MvPolynomial.eval_C, MvPolynomial.eval_X]
    have h : ((√(v.2.1 ^ 2 + v.2.2 ^ 2) : ℝ) : ℂ) ^ 2 = (v.2.1 : ℂ) ^ 2 + (v.2.2 : ℂ) ^ 2 := by
      rw [← Complex.ofReal_pow, Real.sq_sqrt (by positivity)]; push_cast; ring
    simp [h]

theorem axis_pX (q0 : ℂ) (v : ℝ × ℝ × ℝ) :
    MvPolynomial.eval (fourMomentum q0 v) pX = MvPolynomial.eval (fourMomentum q0 (v.1, √(v.2.1 ^ 2 + v.2.2 ^ 2), 0)) pX := by
  rw [eval_pX, eval_pX, msq_fourMomentum, msq_fourMomentum]
  simp only [r2, Real.sq_sqrt (show 0 ≤ v.2.1 ^ 2 + v.2.2 ^ 2 by positivity)]
  push_cast; ring

theorem axis_pY (om p : ℝ) (q0 : ℂ) (v : ℝ × ℝ × ℝ) : MvPolynomial.eval (fourMomentum q0 v) (pY (external om p)) =
    MvPolynomial.eval (fourMomentum q0 (v.1, √(v.2.1 ^ 2 + v.2.2 ^ 2), 0)) (pY (external om p)) := by
  rw [eval_pY, eval_pY, msq_sum3, msq_sum3]
  simp only [r2, Real.sq_sqrt (show 0 ≤ v.2.1 ^ 2 + v.2.2 ^ 2 by positivity)]
  push_cast; ring

/-! ### Numerators -/

noncomputable def numGhostSE (P : Vec) : Pol :=
  -(MvPolynomial.C (msq P) * pX - MvPolynomial.C (1 / 4) * (pY P - pX - MvPolynomial.C (msq P)) ^ 2)

noncomputable def numGluon (P : Vec) (V : Pol) : Pol :=
  MvPolynomial.C 2 * (V * (MvPolynomial.C 2 * (pX * pY P) + MvPolynomial.C (1 / 4) * (pX + pY P - MvPolynomial.C (msq P)) ^ 2)
    + (pX * pY P - MvPolynomial.C (1 / 4) * (pX + pY P - MvPolynomial.C (msq P)) ^ 2) * (pX + pY P))

noncomputable def numTadpole (V : Pol) : Pol := -(MvPolynomial.C 2 * pX + V)

theorem deg_numGhostSE (P : Vec) : (numGhostSE P).totalDegree ≤ 4 := by
  refine deg_neg (deg_sub ?_ ?_)
  · exact (deg_mul (d := 0) (deg_C _ _) deg_pX).trans (by norm_num)
  · exact deg_mul (d := 0) (e := 4) (deg_C _ _) (deg_sq (d := 2) (deg_sub (deg_sub (deg_pY P) deg_pX) (deg_C _ _)))

theorem deg_numGluon (P : Vec) {V : Pol} (hV : V.totalDegree ≤ 2) : (numGluon P V).totalDegree ≤ 6 := by
  have h1 : (pX * pY P).totalDegree ≤ 4 := deg_mul (d := 2) (e := 2) deg_pX (deg_pY P)
  have h2 : (MvPolynomial.C (1 / 4) * (pX + pY P - MvPolynomial.C (msq P)) ^ 2).totalDegree ≤ 4 :=
    deg_mul (d := 0) (e := 4) (deg_C _ _) (deg_sq (d := 2) (deg_sub (deg_add deg_pX (deg_pY P)) (deg_C _ _)))
  refine deg_mul (d := 0) (e := 6) (deg_C _ _) (deg_add ?_ ?_)
  · exact deg_mul (d := 2) (e := 4) hV (deg_add (deg_mul (d := 0) (e := 4) (deg_C _ _) h1) h2)
  · exact deg_mul (d := 4) (e := 2) (deg_sub h1 h2) (deg_add deg_pX (deg_pY P))

theorem deg_numTadpole {V : Pol} (hV : V.totalDegree ≤ 2) : (numTadpole V).totalDegree ≤ 2 :=
  deg_neg (deg_add (deg_mul (d := 0) (e := 2) (deg_C _ _) deg_pX) hV)

/-! ### The diagrams -/

variable {om p M : ℝ} {pol : List Vec} {V : Pol}

theorem isDiagram_ghostSE (om p : ℝ) (hM : 0 < M) :
    IsDiagram om p ![√M, 0] ![0] (numGhostSE (external om p)) (Spec.ghostSelfEnergy (external om p) M) where
  eq Q h1 h2 := by
    have hx : msq Q ≠ 0 := by simpa using h1 1
    have hxM := h1 0
    have hy : msq (external om p + Q) ≠ 0 := by simpa using h2 0
    have hs := sqrt_sq_cast hM
    simp only [Fin.prod_univ_succ, Fin.prod_univ_zero, Matrix.cons_val_zero, Matrix.cons_val_succ, hs] at hxM ⊢
    rw [ghostSelfEnergy_closed _ _ hx, numGhostSE, hX]
    simp only [map_neg, map_sub, map_mul, map_pow, MvPolynomial.eval_C, eval_pX, eval_pY]
    generalize msq Q = x at *
    generalize msq (external om p + Q) = y at *
    push_cast
    simp only [ne_eq, OfNat.ofNat_ne_zero, not_false_eq_true, zero_pow, add_zero, mul_one]
    field_simp
  axis q0 v := by
    simp only [numGhostSE, map_neg, map_sub, map_mul, map_pow, MvPolynomial.eval_C, axis_pX q0 v, axis_pY om p q0 v]

theorem average_div (l : List Vec) (F : Vec → ℂ) (c : ℂ) : Spec.average l (fun e => F e / c) = Spec.average l F / c := by
  have : (l.map fun e => F e / c).sum = (l.map F).sum / c := by
    induction l with
    | nil => simp
    | cons x l ih => simp only [List.map_cons, List.sum_cons, ih]; ring
  rw [Spec.average, Spec.average, this]; ring

theorem isDiagram_gluonLoop (h : IsPolar pol om p V) (hM : 0 < M) :
    IsDiagram om p ![√M, 0] ![√M, 0] (numGluon (external om p) V) (fun Q => Spec.average pol fun e => Spec.gluonLoop e (external om p) M Q) where
  eq Q h1 h2 := by
    have hx : msq Q ≠ 0 := by simpa using h1 1
    have hxM := h1 0
    have hy : msq (external om p + Q) ≠ 0 := by simpa using h2 1
    have hyM := h2 0
    have hs := sqrt_sq_cast hM
    simp only [Fin.prod_univ_succ, Fin.prod_univ_zero, Matrix.cons_val_zero, Matrix.cons_val_succ, hs] at hxM hyM ⊢
    have := average_affine h.ne (fun e => (e ⬝ᵥ Q) ^ 2) (fun e => Spec.gluonLoop e (external om p) M Q)
      (2 * (2 + (msq Q + msq (external om p + Q) - msq (external om p)) ^ 2 / (4 * msq Q * msq (external om p + Q)))
        / ((msq Q + M) * (msq (external om p + Q) + M)))
      (2 * gX (msq Q) (msq (external om p + Q)) (msq (external om p)) 0 / ((msq Q + M) * (msq (external om p + Q) + M)))
      (fun e he => by
        rw [gluonLoop_closed (h.unit e he) (h.orth e he) M hx hy, gX, gX]
        ring)
    rw [this, h.avg, gX, numGluon]
    simp only [map_add, map_sub, map_mul, map_pow, MvPolynomial.eval_C, eval_pX, eval_pY]
    generalize msq Q = x at *
    generalize msq (external om p + Q) = y at *
    generalize MvPolynomial.eval Q V = u
    push_cast
    simp only [ne_eq, OfNat.ofNat_ne_zero, not_false_eq_true, zero_pow, add_zero, mul_one]
    field_simp
    ring
  axis q0 v := by
    simp only [numGluon, map_add, map_sub, map_mul, map_pow, MvPolynomial.eval_C, axis_pX q0 v, axis_pY om p q0 v, h.axis q0 v]

theorem isDiagram_ghostLoop (h : IsPolar pol om p V) :
    IsDiagram om p ![0] ![0] (-V) (fun Q => Spec.average pol fun e => Spec.ghostLoop e (external om p) Q) where
  eq Q h1 h2 := by
    have hx : msq Q ≠ 0 := by simpa using h1 0
    have hy : msq (external om p + Q) ≠ 0 := by simpa using h2 0
    simp only [Fin.prod_univ_succ, Fin.prod_univ_zero, Matrix.cons_val_zero]
    have := average_affine h.ne (fun e => (e ⬝ᵥ Q) ^ 2) (fun e => Spec.ghostLoop e (external om p) Q)
      (-1 / (msq Q * msq (external om p + Q))) 0 (fun e he => by
        rw [ghostLoop_closed (h.orth e he)]
        ring)
    rw [this, h.avg, map_neg]
    push_cast
    simp only [ne_eq, OfNat.ofNat_ne_zero, not_false_eq_true, zero_pow, add_zero, mul_one]
    ring
  axis q0 v := by simp only [map_neg, h.axis q0 v]

theorem isDiagram_tadpole (h : IsPolar pol om p V) (hM : 0 < M) :
    IsDiagram om p ![√M, 0] ![] (numTadpole V) (fun Q => Spec.average pol fun e => Spec.gluonTadpole e M Q) where
  eq Q h1 h2 := by
    have hx : msq Q ≠ 0 := by simpa using h1 1
    have hxM := h1 0
    have hs := sqrt_sq_cast hM
    simp only [Fin.prod_univ_succ, Fin.prod_univ_zero, Matrix.cons_val_zero, Matrix.cons_val_succ, hs] at hxM ⊢
    have := average_affine h.ne (fun e => (e ⬝ᵥ Q) ^ 2) (fun e => Spec.gluonTadpole e M Q)
      (-1 / (msq Q * (msq Q + M))) (-2 / (msq Q + M)) (fun e he => by
        rw [gluonTadpole_closed (h.unit e he) _ hx]
        field_simp
        ring)
    rw [this, h.avg, numTadpole]
    simp only [map_add, map_neg, map_mul, MvPolynomial.eval_C, eval_pX]
    push_cast
    simp only [ne_eq, OfNat.ofNat_ne_zero, not_false_eq_true, zero_pow, add_zero, mul_one]
    field_simp
    ring
  axis q0 v := by simp only [numTadpole, map_neg, map_add, map_mul, MvPolynomial.eval_C, axis_pX q0 v, h.axis q0 v]

/-! ### Distinct masses -/

theorem injective_two (hM : 0 < M) : Function.Injective fun a => (![√M, 0] : Fin 2 → ℝ) a ^ 2 := by
  intro a b h
  have : M ≠ 0 := hM.ne'
  fin_cases a <;> fin_cases b <;> simp_all [Real.sq_sqrt hM.le]

theorem injective_one : Function.Injective fun a => (![0] : Fin 1 → ℝ) a ^ 2 := fun a b _ => Subsingleton.elim a b
theorem injective_none : Function.Injective fun a => (![] : Fin 0 → ℝ) a ^ 2 := fun a => a.elim0

/-! ### Scalar loops -/

open Spec (loopMomentum den leg RegularLeg en)

/-- Numerators of the scalar loops: a polynomial of degree at most two, and its value at the loop momentum. -/
structure IsNum (om p : ℝ) (N : Vec → ℂ) (V : Pol) (N' : ℝ → ℂ → ℝ → ℂ) : Prop where
  eval : ∀ Q, N Q = MvPolynomial.eval Q V
  deg : V.totalDegree ≤ 2
  axis : ∀ q0 v, MvPolynomial.eval (fourMomentum q0 v) V = MvPolynomial.eval (fourMomentum q0 (v.1, √(v.2.1 ^ 2 + v.2.2 ^ 2), 0)) V
  shift : ∀ Q, N (-(external om p + Q)) = N Q
  avg : ∀ q q0, ∀ z ∈ Icc (-1 : ℝ) 1, N (loopMomentum q0 q z) = N' q q0 z
  cont0 : ∀ q (z : ℝ), Continuous fun w => N' q w z

theorem isNum_one (om p : ℝ) : IsNum om p (fun _ => 1) 1 fun _ => Spec.scalar where
  eval := by simp
  deg := by simp
  axis := by simp
  shift _ := rfl
  avg _ _ _ _ := rfl
  cont0 _ _ := continuous_const

theorem isNum_projected (h : IsPolar pol om p V) {N' : ℝ → ℂ → ℝ → ℂ} (hN : ∀ q, Polarised pol om p q (N' q)) :
    IsNum om p (Spec.projected pol) V N' where
  eval := h.avg
  deg := h.deg
  axis := h.axis
  shift Q := by
    unfold Spec.projected
    have := average_affine h.ne (fun e => (e ⬝ᵥ Q) ^ 2) (fun e => (e ⬝ᵥ (-(external om p + Q))) ^ 2) 1 0 fun e he => by
      rw [dotProduct_neg, dotProduct_add, h.orth e he]; ring
    rw [this]; ring
  avg q q0 z hz := (hN q).avg q0 z hz
  cont0 q := (hN q).cont0

variable {N : Vec → ℂ} {N' : ℝ → ℂ → ℝ → ℂ}

theorem isDiagram_two (h : IsNum om p N V N') (m1 m2 : ℝ) :
    IsDiagram om p (fun _ : Fin 1 => m1) (fun _ : Fin 1 => m2) V (Spec.twoPropagators N (external om p) m1 m2) where
  eq Q _ _ := by simp [Spec.twoPropagators, h.eval]
  axis := h.axis

theorem isDiagram_one (om p m : ℝ) : IsDiagram om p (fun _ : Fin 1 => m) ![] 1 (Spec.onePropagator m) where
  eq Q _ _ := by simp [Spec.onePropagator]
  axis := by simp

theorem line_leg {F : Vec → ℂ} {N : ℂ → ℝ → ℂ} {q : ℝ} {om p m m' : ℂ} (hF : ∀ q0 : ℂ, ∀ z ∈ Icc (-1 : ℝ) 1,
      F (loopMomentum q0 q z) = N q0 z / ((q0 ^ 2 + (q : ℂ) ^ 2 + m ^ 2) * den q0 q om p m' z))
    (hN : ∀ z, Continuous fun w => N w z) (hE : en q m ≠ 0) (r : RegularLeg q om p m m') (beta : ℝ) :
    Spec.line F q m beta = leg N q om p m m' beta := by
  rw [line_avg beta (R := fun w z => N w z / den w q om p m' z) fun z hz w hw => ?_, leg_avg]
  have hw2 := shell_sq hw
  have h0 : w ≠ 0 := by rcases hw with rfl | rfl <;> simp [hE]
  have hy : den w q om p m' z ≠ 0 := by
    rcases hw with rfl | rfl
    · exact (r z hz).1
    · exact (r z hz).2
  have c2 : ContinuousAt (fun w => den w q om p m' z) w := (show Continuous fun w => den w q om p m' z by unfold den; fun_prop).continuousAt
  refine atPole_eq (A := fun u => N u z / den u q om p m' z) (by rw [hw2, en_sq]; ring) h0 ((hN z).continuousAt.div c2 hy)
    (Filter.Eventually.of_forall fun u _ => ?_)
  rw [hF u z hz, en_sq, div_div, mul_comm, add_assoc]

theorem lines_two (h : IsNum om p N V N') (ho : om ≠ 0) (m1 m2 : ℝ) {q : ℝ} (hq : 0 < q) (beta : ℝ) :
    Spec.line (Spec.twoPropagators N (external om p) m1 m2) q m1 beta
      + Spec.line (swapped om p (Spec.twoPropagators N (external om p) m1 m2)) q m2 beta = Spec.loop (N' q) q om p m1 m2 beta := by
  have e1 : Spec.line (Spec.twoPropagators N (external om p) m1 m2) q m1 beta = leg (N' q) q om p m1 m2 beta :=
    line_leg (fun q0 z hz => by
      rw [Spec.twoPropagators, h.avg q q0 z hz, msq_loop q0 q hz, msq_sum q0 q om p hz]
      simp only [den]; ring) (h.cont0 q) (en_real_ne hq _) (regularLeg_real hq ho p m1 m2) beta
  have e2 : Spec.line (swapped om p (Spec.twoPropagators N (external om p) m1 m2)) q m2 beta = leg (N' q) q om p m2 m1 beta :=
    line_leg (fun q0 z hz => by
      rw [swapped, Spec.twoPropagators, h.shift, h.avg q q0 z hz, shift_sum, Qcd.msq_neg, Qcd.msq_neg, msq_loop q0 q hz, msq_sum q0 q om p hz]
      simp only [den]; ring) (h.cont0 q) (en_real_ne hq _) (regularLeg_real hq ho p m2 m1) beta
  rw [Spec.loop, e1, e2]

theorem line_one (m : ℝ) {q : ℝ} (hq : 0 < q) (beta : ℝ) : Spec.line (Spec.onePropagator m) q m beta = Spec.tadpole Spec.scalar q m beta := by
  rw [tadpole_avg, line_avg beta (R := Spec.scalar) fun z hz w hw => ?_]
  have hw2 := shell_sq hw
  have h0 : w ≠ 0 := by rcases hw with rfl | rfl <;> simp [en_real_ne hq]
  refine atPole_eq (A := fun _ => 1) (by rw [hw2, en_sq]; ring) h0 continuousAt_const (Filter.Eventually.of_forall fun u _ => ?_)
  simp only [Spec.onePropagator]
  rw [msq_loop u q hz, en_sq, add_assoc]

end Qcd.Matsubara
