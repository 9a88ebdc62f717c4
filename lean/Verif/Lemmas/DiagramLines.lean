import Verif.Lemmas.Diagrams

/-! # The lines of the diagrams as combinations of the scalar loops -/

namespace Qcd
open Matrix Spec Filter Topology MeasureTheory intervalIntegral

/-- Weight of a line on shell. -/
noncomputable def lineW (q : ℝ) (m : ℂ) (beta : ℝ) : ℂ :=
  (q : ℂ) ^ 2 / (4 * (Real.pi : ℂ) ^ 2) * (bose beta (en q m) / (2 * en q m))

/-- Both signs of the energy, integrated over the angle. -/
noncomputable def avg (R : ℂ → ℝ → ℂ) (q : ℝ) (m : ℂ) : ℂ :=
  ∫ z in (-1 : ℝ)..1, (R (Complex.I * en q m) z + R (-(Complex.I * en q m)) z)

theorem leg_avg (N : ℂ → ℝ → ℂ) (q : ℝ) (om p m m' : ℂ) (beta : ℝ) :
    leg N q om p m m' beta = lineW q m beta * avg (fun w z => N w z / den w q om p m' z) q m := rfl

theorem tadpole_avg (N : ℂ → ℝ → ℂ) (q : ℝ) (m : ℂ) (beta : ℝ) : tadpole N q m beta = lineW q m beta * avg N q m := rfl

theorem avg_congr {R R' : ℂ → ℝ → ℂ} {q : ℝ} {m : ℂ}
    (h : ∀ z ∈ Set.Icc (-1 : ℝ) 1, R (Complex.I * en q m) z = R' (Complex.I * en q m) z ∧
      R (-(Complex.I * en q m)) z = R' (-(Complex.I * en q m)) z) : avg R q m = avg R' q m := by
  refine integral_congr fun z hz => ?_
  rw [Set.uIcc_of_le (by norm_num)] at hz
  simp only [(h z hz).1, (h z hz).2]

theorem line_avg {F : Vec → ℂ} {R : ℂ → ℝ → ℂ} {q : ℝ} {m : ℂ} (beta : ℝ)
    (h : ∀ z ∈ Set.Icc (-1 : ℝ) 1, ∀ w, w = Complex.I * en q m ∨ w = -(Complex.I * en q m) →
      atPole (fun q0 => F (loopMomentum q0 q z)) (en q m) w = R w z) :
    line F q m beta = lineW q m beta * avg R q m := by
  rw [line, lineW, avg]
  congr 1
  refine integral_congr fun z hz => ?_
  rw [Set.uIcc_of_le (by norm_num)] at hz
  simp only [h z hz _ (.inl rfl), h z hz _ (.inr rfl)]

/-- Continuity in the angle on shell. -/
def AngCont (R : ℂ → ℝ → ℂ) (q : ℝ) (m : ℂ) : Prop :=
  ContinuousOn (fun z => R (Complex.I * en q m) z) (Set.uIcc (-1) 1) ∧
  ContinuousOn (fun z => R (-(Complex.I * en q m)) z) (Set.uIcc (-1) 1)

theorem avg_sum {n : ℕ} {f : Fin n → ℂ → ℝ → ℂ} {q : ℝ} {m : ℂ} (c : Fin n → ℂ) (hf : ∀ i, AngCont (f i) q m) :
    avg (fun w z => ∑ i, c i * f i w z) q m = ∑ i, c i * avg (f i) q m := by
  simp only [avg, ← Finset.sum_add_distrib, ← mul_add]
  rw [intervalIntegral.integral_finsetSum]
  · simp only [intervalIntegral.integral_const_mul]
  · intro i _
    exact ((continuousOn_const.mul ((hf i).1.add (hf i).2))).intervalIntegrable

theorem AngCont.of_continuous {R : ℂ → ℝ → ℂ} (h : ∀ w, Continuous fun z => R w z) (q : ℝ) (m : ℂ) : AngCont R q m :=
  ⟨(h _).continuousOn, (h _).continuousOn⟩

theorem AngCont.div_den {N : ℂ → ℝ → ℂ} (h : ∀ w, Continuous fun z => N w z) {q : ℝ} {om p m m' : ℂ}
    (hr : RegularLeg q om p m m') : AngCont (fun w z => N w z / den w q om p m' z) q m := by
  have hd : ∀ w, Continuous fun z : ℝ => den w q om p m' z := fun w => by unfold den; fun_prop
  unfold RegularLeg at hr
  rw [← Set.uIcc_of_le (show (-1 : ℝ) ≤ 1 by norm_num)] at hr
  exact ⟨(h _).continuousOn.div (hd _).continuousOn fun z hz => (hr z hz).1,
    (h _).continuousOn.div (hd _).continuousOn fun z hz => (hr z hz).2⟩

theorem en_sq (q : ℝ) (m : ℂ) : en q m ^ 2 = (q : ℂ) ^ 2 + m ^ 2 := by rw [spec_en, energy_sq]

theorem shell_sq {q : ℝ} {m w : ℂ} (h : w = Complex.I * en q m ∨ w = -(Complex.I * en q m)) : w ^ 2 = -((q : ℂ) ^ 2 + m ^ 2) := by
  rw [← en_sq]
  rcases h with rfl | rfl
  · rw [mul_pow, Complex.I_sq]; ring
  · rw [neg_sq, mul_pow, Complex.I_sq]; ring

theorem avg_den {q : ℝ} {om p m : ℂ} : avg (fun w z => den w q om p 0 z) q m = (om ^ 2 + p ^ 2 - m ^ 2) * avg Spec.scalar q m := by
  have h := en_sq q m
  have e1 : ∀ z : ℝ, den (Complex.I * en q m) q om p 0 z + den (-(Complex.I * en q m)) q om p 0 z
      = 2 * (om ^ 2 + p ^ 2 - m ^ 2) + (0 + 4 * q * p * (z : ℂ)) := by
    intro z
    simp only [den]
    linear_combination 2 * en q m ^ 2 * Complex.I_sq - 2 * h
  simp only [avg, e1, int_lin, Spec.scalar]
  simp
  ring

theorem den_mass (w : ℂ) (q : ℝ) (om p m : ℂ) (z : ℝ) : den w q om p m z = den w q om p 0 z + m ^ 2 := by
  simp only [den]; ring

/-! ### Gluon loop -/

section glue
variable {pol : List Vec} {om p : ℂ} {q : ℝ} {V : ℂ → ℝ → ℂ}

theorem contAt_den (q : ℝ) (om p : ℂ) (z : ℝ) : Continuous fun w => den w q om p 0 z := by unfold den; fun_prop

theorem contAt_gX {w s : ℂ} {z : ℝ} (hV : Continuous fun w => V w z) (hx : w ^ 2 + (q : ℂ) ^ 2 ≠ 0) (hy : den w q om p 0 z ≠ 0) :
    ContinuousAt (fun u => gX (u ^ 2 + (q : ℂ) ^ 2) (den u q om p 0 z) s (V u z)) w := by
  have c1 : ContinuousAt (fun u : ℂ => u ^ 2 + (q : ℂ) ^ 2) w := by fun_prop
  have c2 := (contAt_den q om p z).continuousAt (x := w)
  have c3 := hV.continuousAt (x := w)
  have c4 : ContinuousAt (fun u : ℂ => (u ^ 2 + (q : ℂ) ^ 2 + den u q om p 0 z - s) ^ 2) w := ((c1.add c2).sub continuousAt_const).pow 2
  exact (c3.mul (continuousAt_const.add (c4.div ((continuousAt_const.mul c1).mul c2) (mul_ne_zero (mul_ne_zero (by norm_num) hx) hy)))).add
    (((c1.mul c2).sub (c4.div_const 4)).mul ((continuousAt_const.div c1 hx).add (continuousAt_const.div c2 hy)))

/-- A function which agrees with the closed form of the gluon loop. -/
def IsGlue (F : Vec → ℂ) (M om p : ℂ) (q : ℝ) (V : ℂ → ℝ → ℂ) : Prop :=
  ∀ q0 : ℂ, ∀ z ∈ Set.Icc (-1 : ℝ) 1, q0 ^ 2 + (q : ℂ) ^ 2 ≠ 0 → den q0 q om p 0 z ≠ 0 →
    F (loopMomentum q0 q z) =
      2 * gX (q0 ^ 2 + (q : ℂ) ^ 2) (den q0 q om p 0 z) (om ^ 2 + p ^ 2) (V q0 z) / ((q0 ^ 2 + (q : ℂ) ^ 2 + M) * (den q0 q om p 0 z + M))

theorem glue_massive_pole {F : Vec → ℂ} {m : ℂ} (hF : IsGlue F (m ^ 2) om p q V) (hV : ∀ z, Continuous fun w => V w z) (hm : m ≠ 0)
    (hE : en q m ≠ 0) {z : ℝ} (hz : z ∈ Set.Icc (-1 : ℝ) 1) {w : ℂ} (hw : w = Complex.I * en q m ∨ w = -(Complex.I * en q m))
    (hy : den w q om p 0 z ≠ 0) (hym : den w q om p m z ≠ 0) :
    atPole (fun q0 => F (loopMomentum q0 q z)) (en q m) w =
      2 * gX (-m ^ 2) (den w q om p 0 z) (om ^ 2 + p ^ 2) (V w z) / den w q om p m z := by
  have hw2 := shell_sq hw
  have hx : w ^ 2 + (q : ℂ) ^ 2 = -m ^ 2 := by rw [hw2]; ring
  have hx0 : w ^ 2 + (q : ℂ) ^ 2 ≠ 0 := by rw [hx]; exact neg_ne_zero.2 (pow_ne_zero 2 hm)
  have h0 : w ≠ 0 := by rcases hw with rfl | rfl <;> simp [hE]
  have key := atPole_eq (F := fun q0 => F (loopMomentum q0 q z))
    (A := fun u => 2 * gX (u ^ 2 + (q : ℂ) ^ 2) (den u q om p 0 z) (om ^ 2 + p ^ 2) (V u z) / den u q om p m z)
    (E := en q m) (w := w) (by rw [hw2, en_sq]; ring) h0
    ((continuousAt_const.mul (contAt_gX (hV z) hx0 hy)).div (by unfold den; fun_prop) hym) ?_
  · rw [key]; simp only [hx]
  · have c1 : ContinuousAt (fun u : ℂ => u ^ 2 + (q : ℂ) ^ 2) w := by fun_prop
    filter_upwards [c1.eventually_ne hx0, (contAt_den q om p z).continuousAt.eventually_ne hy] with u h1 h2 _
    rw [hF u z hz h1 h2, den_mass u q om p m, en_sq]
    rw [div_div]
    congr 1
    ring

theorem glue_massless_pole {F : Vec → ℂ} {m : ℂ} (hF : IsGlue F (m ^ 2) om p q V) (hV : ∀ z, Continuous fun w => V w z) (hm : m ≠ 0)
    (hE : en q 0 ≠ 0) {z : ℝ} (hz : z ∈ Set.Icc (-1 : ℝ) 1) {w : ℂ} (hw : w = Complex.I * en q 0 ∨ w = -(Complex.I * en q 0))
    (hy : den w q om p 0 z ≠ 0) (hym : den w q om p m z ≠ 0) :
    atPole (fun q0 => F (loopMomentum q0 q z)) (en q 0) w =
      (den w q om p 0 z - (om ^ 2 + p ^ 2)) ^ 2 * (V w z / den w q om p 0 z - 1) / (2 * m ^ 2 * den w q om p m z) := by
  have hw2 := shell_sq hw
  have hx : w ^ 2 + (q : ℂ) ^ 2 = 0 := by rw [hw2]; ring
  have h0 : w ≠ 0 := by rcases hw with rfl | rfl <;> simp [hE]
  have hm2 : m ^ 2 ≠ 0 := pow_ne_zero 2 hm
  have c1 : ContinuousAt (fun u : ℂ => u ^ 2 + (q : ℂ) ^ 2) w := by fun_prop
  have c2 := (contAt_den q om p z).continuousAt (x := w)
  have c3 := (hV z).continuousAt (x := w)
  have c4 : ContinuousAt (fun u : ℂ => (u ^ 2 + (q : ℂ) ^ 2 + den u q om p 0 z - (om ^ 2 + p ^ 2)) ^ 2) w :=
    ((c1.add c2).sub continuousAt_const).pow 2
  have c5 : ContinuousAt (fun u : ℂ => den u q om p m z) w := by unfold den; fun_prop
  have c6 : ContinuousAt (fun u : ℂ => u ^ 2 + (q : ℂ) ^ 2 + m ^ 2) w := by fun_prop
  have key := atPole_eq (F := fun q0 => F (loopMomentum q0 q z))
    (A := fun u => 2 * (V u z * (2 * (u ^ 2 + (q : ℂ) ^ 2)
          + (u ^ 2 + (q : ℂ) ^ 2 + den u q om p 0 z - (om ^ 2 + p ^ 2)) ^ 2 / (4 * den u q om p 0 z))
        + ((u ^ 2 + (q : ℂ) ^ 2) * den u q om p 0 z - (u ^ 2 + (q : ℂ) ^ 2 + den u q om p 0 z - (om ^ 2 + p ^ 2)) ^ 2 / 4)
          * (1 + (u ^ 2 + (q : ℂ) ^ 2) / den u q om p 0 z)) / ((u ^ 2 + (q : ℂ) ^ 2 + m ^ 2) * den u q om p m z))
    (E := en q 0) (w := w) (by rw [hw2, en_sq]; ring) h0 ?_ ?_
  · rw [key]
    simp only [hx]
    field_simp
    ring
  · refine (continuousAt_const.mul ((c3.mul ((continuousAt_const.mul c1).add (c4.div (continuousAt_const.mul c2)
      (mul_ne_zero (by norm_num) hy)))).add (((c1.mul c2).sub (c4.div_const 4)).mul (continuousAt_const.add (c1.div c2 hy))))).div
      ((c1.add continuousAt_const).mul c5) (mul_ne_zero (by rw [hx, zero_add]; exact hm2) hym)
  · filter_upwards [c2.eventually_ne hy, c5.eventually_ne hym, c6.eventually_ne (show w ^ 2 + (q : ℂ) ^ 2 + m ^ 2 ≠ 0 by rw [hx, zero_add]; exact hm2)] with u h2 h3 h4 h5
    have e0 : en q 0 ^ 2 = (q : ℂ) ^ 2 := by rw [en_sq]; ring
    rw [e0] at h5 ⊢
    rw [hF u z hz h5 h2, den_mass u q om p m]
    rw [den_mass u q om p m] at h3
    generalize u ^ 2 + (q : ℂ) ^ 2 = x at *
    generalize den u q om p 0 z = y at *
    simp only [gX]
    field_simp

/-- The massive line of the gluon loop. -/
theorem glue_massive_line {F : Vec → ℂ} {m : ℂ} (hF : IsGlue F (m ^ 2) om p q V) (hV : ∀ z, Continuous fun w => V w z)
    (hV' : ∀ w, Continuous fun z => V w z) (hm : m ≠ 0) (hE : en q m ≠ 0) (r0 : RegularLeg q om p m 0) (rm : RegularLeg q om p m m) (beta : ℝ) :
    line F q m beta =
      ((om ^ 2 + p ^ 2) ^ 2 + 4 * (om ^ 2 + p ^ 2) * m ^ 2 + 12 * m ^ 4) / (2 * m ^ 4) * leg V q om p m m beta
      - (om ^ 2 + p ^ 2 + m ^ 2) ^ 2 / (2 * m ^ 4) * leg V q om p m 0 beta
      - 1 / (2 * m ^ 2) * tadpole V q m beta
      + (om ^ 2 + p ^ 2) * (om ^ 2 + p ^ 2 + 4 * m ^ 2) / m ^ 2 * leg Spec.scalar q om p m m beta
      - (om ^ 2 + p ^ 2 + m ^ 2) ^ 2 / (2 * m ^ 2) * leg Spec.scalar q om p m 0 beta
      - (om ^ 2 + p ^ 2 + m ^ 2) / (2 * m ^ 2) * tadpole Spec.scalar q m beta := by
  have hm2 : m ^ 2 ≠ 0 := pow_ne_zero 2 hm
  obtain ⟨s, hs⟩ : ∃ s, s = om ^ 2 + p ^ 2 := ⟨_, rfl⟩
  have hden : ∀ {z : ℝ}, z ∈ Set.Icc (-1 : ℝ) 1 → ∀ {w : ℂ}, (w = Complex.I * en q m ∨ w = -(Complex.I * en q m)) →
      den w q om p 0 z ≠ 0 ∧ den w q om p m z ≠ 0 := by
    intro z hz w hw
    rcases hw with rfl | rfl
    · exact ⟨(r0 z hz).1, (rm z hz).1⟩
    · exact ⟨(r0 z hz).2, (rm z hz).2⟩
  rw [line_avg beta fun z hz w hw => glue_massive_pole hF hV hm hE hz hw (hden hz hw).1 (hden hz hw).2]
  have h7 := avg_sum (q := q) (m := m)
    (f := ![fun w z => V w z / den w q om p m z, fun w z => V w z / den w q om p 0 z, V, fun w z => Spec.scalar w z / den w q om p m z,
      fun w z => Spec.scalar w z / den w q om p 0 z, Spec.scalar, fun w z => den w q om p 0 z])
    ![(s ^ 2 + 4 * s * m ^ 2 + 12 * m ^ 4) / (2 * m ^ 4), -(s + m ^ 2) ^ 2 / (2 * m ^ 4), -1 / (2 * m ^ 2), s * (s + 4 * m ^ 2) / m ^ 2,
      -(s + m ^ 2) ^ 2 / (2 * m ^ 2), -s / m ^ 2, 1 / (2 * m ^ 2)] (by
    have c1 : ∀ w, Continuous fun z : ℝ => Spec.scalar w z := fun w => by unfold Spec.scalar; fun_prop
    have c2 : ∀ w, Continuous fun z : ℝ => den w q om p 0 z := fun w => by unfold den; fun_prop
    intro i
    fin_cases i
    · exact AngCont.div_den hV' rm
    · exact AngCont.div_den hV' r0
    · exact AngCont.of_continuous hV' q m
    · exact AngCont.div_den c1 rm
    · exact AngCont.div_den c1 r0
    · exact AngCont.of_continuous c1 q m
    · exact AngCont.of_continuous c2 q m)
  have hcongr : avg (fun w z => 2 * gX (-m ^ 2) (den w q om p 0 z) (om ^ 2 + p ^ 2) (V w z) / den w q om p m z) q m = _ :=
    (avg_congr fun z hz => ?_).trans h7
  · rw [hcongr, leg_avg, leg_avg, leg_avg, leg_avg, tadpole_avg, tadpole_avg]
    simp only [Fin.sum_univ_succ, Fin.sum_univ_zero, Matrix.cons_val_zero, Matrix.cons_val_succ, Fin.succ_zero_eq_one]
    rw [avg_den, ← hs]
    field_simp
    ring
  · have key : ∀ w, (w = Complex.I * en q m ∨ w = -(Complex.I * en q m)) →
        2 * gX (-m ^ 2) (den w q om p 0 z) (om ^ 2 + p ^ 2) (V w z) / den w q om p m z =
        (s ^ 2 + 4 * s * m ^ 2 + 12 * m ^ 4) / (2 * m ^ 4) * (V w z / den w q om p m z)
          + (-(s + m ^ 2) ^ 2 / (2 * m ^ 4) * (V w z / den w q om p 0 z) + (-1 / (2 * m ^ 2) * V w z
          + (s * (s + 4 * m ^ 2) / m ^ 2 * (Spec.scalar w z / den w q om p m z)
          + (-(s + m ^ 2) ^ 2 / (2 * m ^ 2) * (Spec.scalar w z / den w q om p 0 z) + (-s / m ^ 2 * Spec.scalar w z
          + (1 / (2 * m ^ 2) * den w q om p 0 z + 0)))))) := by
      intro w hw
      obtain ⟨hy, hym⟩ := hden hz hw
      rw [← hs]
      simp only [Spec.scalar]
      rw [den_mass w q om p m] at hym ⊢
      generalize den w q om p 0 z = y at *
      generalize V w z = v
      simp only [gX]
      rw [show m ^ 4 = (m ^ 2) ^ 2 by ring]
      generalize m ^ 2 = M at *
      field_simp
      ring
    simp only [Fin.sum_univ_succ, Fin.sum_univ_zero, Matrix.cons_val_zero, Matrix.cons_val_succ, Fin.succ_zero_eq_one]
    exact ⟨key _ (.inl rfl), key _ (.inr rfl)⟩

/-- The massless line of the gluon loop. -/
theorem glue_massless_line {F : Vec → ℂ} {m : ℂ} (hF : IsGlue F (m ^ 2) om p q V) (hV : ∀ z, Continuous fun w => V w z)
    (hV' : ∀ w, Continuous fun z => V w z) (hm : m ≠ 0) (hE : en q 0 ≠ 0) (r0 : RegularLeg q om p 0 0) (rm : RegularLeg q om p 0 m) (beta : ℝ) :
    line F q 0 beta =
      - (om ^ 2 + p ^ 2 + m ^ 2) ^ 2 / (2 * m ^ 4) * leg V q om p 0 m beta
      + (om ^ 2 + p ^ 2) ^ 2 / (2 * m ^ 4) * leg V q om p 0 0 beta
      + 1 / (2 * m ^ 2) * tadpole V q 0 beta
      - (om ^ 2 + p ^ 2 + m ^ 2) ^ 2 / (2 * m ^ 2) * leg Spec.scalar q om p 0 m beta
      + (om ^ 2 + p ^ 2 + m ^ 2) / (2 * m ^ 2) * tadpole Spec.scalar q 0 beta := by
  have hm2 : m ^ 2 ≠ 0 := pow_ne_zero 2 hm
  obtain ⟨s, hs⟩ : ∃ s, s = om ^ 2 + p ^ 2 := ⟨_, rfl⟩
  have hden : ∀ {z : ℝ}, z ∈ Set.Icc (-1 : ℝ) 1 → ∀ {w : ℂ}, (w = Complex.I * en q 0 ∨ w = -(Complex.I * en q 0)) →
      den w q om p 0 z ≠ 0 ∧ den w q om p m z ≠ 0 := by
    intro z hz w hw
    rcases hw with rfl | rfl
    · exact ⟨(r0 z hz).1, (rm z hz).1⟩
    · exact ⟨(r0 z hz).2, (rm z hz).2⟩
  rw [line_avg beta fun z hz w hw => glue_massless_pole hF hV hm hE hz hw (hden hz hw).1 (hden hz hw).2]
  have h7 := avg_sum (q := q) (m := 0)
    (f := ![fun w z => V w z / den w q om p m z, fun w z => V w z / den w q om p 0 z, V, fun w z => Spec.scalar w z / den w q om p m z,
      Spec.scalar, fun w z => den w q om p 0 z])
    ![-(s + m ^ 2) ^ 2 / (2 * m ^ 4), s ^ 2 / (2 * m ^ 4), 1 / (2 * m ^ 2), 
      -(s + m ^ 2) ^ 2 / (2 * m ^ 2), (2 * s + m ^ 2) / (2 * m ^ 2), -1 / (2 * m ^ 2)] (by
    have c1 : ∀ w, Continuous fun z : ℝ => Spec.scalar w z := fun w => by unfold Spec.scalar; fun_prop
    have c2 : ∀ w, Continuous fun z : ℝ => den w q om p 0 z := fun w => by unfold den; fun_prop
    intro i
    fin_cases i
    · exact AngCont.div_den hV' rm
    · exact AngCont.div_den hV' r0
    · exact AngCont.of_continuous hV' q 0
    · exact AngCont.div_den c1 rm
    · exact AngCont.of_continuous c1 q 0
    · exact AngCont.of_continuous c2 q 0)
  have hcongr : avg (fun w z => (den w q om p 0 z - (om ^ 2 + p ^ 2)) ^ 2 * (V w z / den w q om p 0 z - 1) / (2 * m ^ 2 * den w q om p m z)) q 0 = _ :=
    (avg_congr fun z hz => ?_).trans h7
  · rw [hcongr, leg_avg, leg_avg, leg_avg, tadpole_avg, tadpole_avg]
    simp only [Fin.sum_univ_succ, Fin.sum_univ_zero, Matrix.cons_val_zero, Matrix.cons_val_succ, Fin.succ_zero_eq_one]
    rw [avg_den, ← hs]
    field_simp
    ring
  · have key : ∀ w, (w = Complex.I * en q 0 ∨ w = -(Complex.I * en q 0)) →
        (den w q om p 0 z - (om ^ 2 + p ^ 2)) ^ 2 * (V w z / den w q om p 0 z - 1) / (2 * m ^ 2 * den w q om p m z) =
        -(s + m ^ 2) ^ 2 / (2 * m ^ 4) * (V w z / den w q om p m z)
          + (s ^ 2 / (2 * m ^ 4) * (V w z / den w q om p 0 z) + (1 / (2 * m ^ 2) * V w z
          + (-(s + m ^ 2) ^ 2 / (2 * m ^ 2) * (Spec.scalar w z / den w q om p m z)
          + ((2 * s + m ^ 2) / (2 * m ^ 2) * Spec.scalar w z
          + (-1 / (2 * m ^ 2) * den w q om p 0 z + 0))))) := by
      intro w hw
      obtain ⟨hy, hym⟩ := hden hz hw
      rw [← hs]
      simp only [Spec.scalar]
      rw [den_mass w q om p m] at hym ⊢
      generalize den w q om p 0 z = y at *
      generalize V w z = v
      rw [show m ^ 4 = (m ^ 2) ^ 2 by ring]
      generalize m ^ 2 = M at *
      field_simp
      ring
    simp only [Fin.sum_univ_succ, Fin.sum_univ_zero, Matrix.cons_val_zero, Matrix.cons_val_succ, Fin.succ_zero_eq_one]
    exact ⟨key _ (.inl rfl), key _ (.inr rfl)⟩

/-! ### Ghost loop and tadpole -/

/-- The line of the ghost loop. -/
theorem ghost_line {F : Vec → ℂ} (hF : ∀ q0 : ℂ, ∀ z ∈ Set.Icc (-1 : ℝ) 1,
      F (loopMomentum q0 q z) = -V q0 z / ((q0 ^ 2 + (q : ℂ) ^ 2) * den q0 q om p 0 z))
    (hV : ∀ z, Continuous fun w => V w z) (hE : en q 0 ≠ 0) (r0 : RegularLeg q om p 0 0) (beta : ℝ) :
    line F q 0 beta = -leg V q om p 0 0 beta := by
  rw [line_avg beta (R := fun w z => -(V w z / den w q om p 0 z)) fun z hz w hw => ?_, leg_avg]
  · simp only [avg, ← neg_add]
    rw [intervalIntegral.integral_neg]
    ring
  · have hw2 := shell_sq hw
    have h0 : w ≠ 0 := by rcases hw with rfl | rfl <;> simp [hE]
    have hy : den w q om p 0 z ≠ 0 := by
      rcases hw with rfl | rfl
      · exact (r0 z hz).1
      · exact (r0 z hz).2
    have c2 := (contAt_den q om p z).continuousAt (x := w)
    refine atPole_eq (A := fun u => -(V u z / den u q om p 0 z)) (by rw [hw2, en_sq]; ring) h0 (((hV z).continuousAt.div c2 hy).neg)
      (Eventually.of_forall fun u _ => ?_)
    have e0 : en q 0 ^ 2 = (q : ℂ) ^ 2 := by rw [en_sq]; ring
    rw [hF u z hz, e0, neg_div, neg_div, div_div, mul_comm]

/-- The massive line of the tadpole. -/
theorem tadpole_massive_line {F : Vec → ℂ} {m : ℂ} (hF : ∀ q0 : ℂ, ∀ z ∈ Set.Icc (-1 : ℝ) 1, q0 ^ 2 + (q : ℂ) ^ 2 ≠ 0 →
      F (loopMomentum q0 q z) = -(2 + V q0 z / (q0 ^ 2 + (q : ℂ) ^ 2)) / (q0 ^ 2 + (q : ℂ) ^ 2 + m ^ 2))
    (hV : ∀ z, Continuous fun w => V w z) (hV' : ∀ w, Continuous fun z => V w z) (hm : m ≠ 0) (hE : en q m ≠ 0) (beta : ℝ) :
    line F q m beta = -2 * tadpole Spec.scalar q m beta + 1 / m ^ 2 * tadpole V q m beta := by
  have hm2 : m ^ 2 ≠ 0 := pow_ne_zero 2 hm
  have h2 := avg_sum (q := q) (m := m) (f := ![Spec.scalar, V]) ![-2, 1 / m ^ 2] (by
    intro i
    fin_cases i
    · exact AngCont.of_continuous (R := Spec.scalar) (fun w => by unfold Spec.scalar; fun_prop) q m
    · exact AngCont.of_continuous hV' q m)
  simp only [Fin.sum_univ_two, Matrix.cons_val_zero, Matrix.cons_val_one] at h2
  rw [line_avg beta (R := fun w z => -2 * Spec.scalar w z + 1 / m ^ 2 * V w z) fun z hz w hw => ?_, tadpole_avg, tadpole_avg, h2]
  · ring
  · have hw2 := shell_sq hw
    have hx : w ^ 2 + (q : ℂ) ^ 2 = -m ^ 2 := by rw [hw2]; ring
    have hx0 : w ^ 2 + (q : ℂ) ^ 2 ≠ 0 := by rw [hx]; exact neg_ne_zero.2 hm2
    have h0 : w ≠ 0 := by rcases hw with rfl | rfl <;> simp [hE]
    have c1 : ContinuousAt (fun u : ℂ => u ^ 2 + (q : ℂ) ^ 2) w := by fun_prop
    rw [atPole_eq (A := fun u => -(2 + V u z / (u ^ 2 + (q : ℂ) ^ 2))) (by rw [hw2, en_sq]; ring) h0
      ((continuousAt_const.add ((hV z).continuousAt.div c1 hx0)).neg) ?_]
    · simp only [hx, Spec.scalar]; field_simp; ring
    · filter_upwards [c1.eventually_ne hx0] with u h1 _
      rw [hF u z hz h1, en_sq]
      congr 1; ring

/-- The massless line of the tadpole. -/
theorem tadpole_massless_line {F : Vec → ℂ} {m : ℂ} (hF : ∀ q0 : ℂ, ∀ z ∈ Set.Icc (-1 : ℝ) 1, q0 ^ 2 + (q : ℂ) ^ 2 ≠ 0 →
      F (loopMomentum q0 q z) = -(2 + V q0 z / (q0 ^ 2 + (q : ℂ) ^ 2)) / (q0 ^ 2 + (q : ℂ) ^ 2 + m ^ 2))
    (hV : ∀ z, Continuous fun w => V w z) (hm : m ≠ 0) (hE : en q 0 ≠ 0) (beta : ℝ) :
    line F q 0 beta = -(1 / m ^ 2) * tadpole V q 0 beta := by
  have hm2 : m ^ 2 ≠ 0 := pow_ne_zero 2 hm
  rw [line_avg beta (R := fun w z => -(1 / m ^ 2) * V w z) fun z hz w hw => ?_, tadpole_avg]
  · simp only [avg, ← mul_add]
    rw [intervalIntegral.integral_const_mul]
    ring
  · have hw2 := shell_sq hw
    have hx : w ^ 2 + (q : ℂ) ^ 2 = 0 := by rw [hw2]; ring
    have h0 : w ≠ 0 := by rcases hw with rfl | rfl <;> simp [hE]
    have c1 : ContinuousAt (fun u : ℂ => u ^ 2 + (q : ℂ) ^ 2) w := by fun_prop
    have c6 : ContinuousAt (fun u : ℂ => u ^ 2 + (q : ℂ) ^ 2 + m ^ 2) w := by fun_prop
    have h6 : w ^ 2 + (q : ℂ) ^ 2 + m ^ 2 ≠ 0 := by rw [hx, zero_add]; exact hm2
    rw [atPole_eq (A := fun u => -(2 * (u ^ 2 + (q : ℂ) ^ 2) + V u z) / (u ^ 2 + (q : ℂ) ^ 2 + m ^ 2)) (by rw [hw2, en_sq]; ring) h0
      ((((continuousAt_const.mul c1).add (hV z).continuousAt).neg).div c6 h6) ?_]
    · simp only [hx]; field_simp; ring
    · have e0 : en q 0 ^ 2 = (q : ℂ) ^ 2 := by rw [en_sq]; ring
      rw [e0]
      filter_upwards [c6.eventually_ne h6] with u h1 h2
      rw [hF u z hz h2]
      field_simp

end glue

/-! ### Ghost self-energy -/

section ghost
variable {om p : ℂ} {q : ℝ}

theorem ghostSE_massive_line {F : Vec → ℂ} {m : ℂ} (hF : ∀ q0 : ℂ, ∀ z ∈ Set.Icc (-1 : ℝ) 1, q0 ^ 2 + (q : ℂ) ^ 2 ≠ 0 →
      F (loopMomentum q0 q z) = -hX (q0 ^ 2 + (q : ℂ) ^ 2) (den q0 q om p 0 z) (om ^ 2 + p ^ 2) / ((q0 ^ 2 + (q : ℂ) ^ 2 + m ^ 2) * den q0 q om p 0 z))
    (hm : m ≠ 0) (hE : en q m ≠ 0) (r0 : RegularLeg q om p m 0) (beta : ℝ) :
    line F q m beta = -(om ^ 2 + p ^ 2 + m ^ 2) ^ 2 / (4 * m ^ 2) * leg Spec.scalar q om p m 0 beta
      + (om ^ 2 + p ^ 2 - m ^ 2) / (4 * m ^ 2) * tadpole Spec.scalar q m beta := by
  have hm2 : m ^ 2 ≠ 0 := pow_ne_zero 2 hm
  obtain ⟨s, hs⟩ : ∃ s, s = om ^ 2 + p ^ 2 := ⟨_, rfl⟩
  have c1 : ∀ w, Continuous fun z : ℝ => Spec.scalar w z := fun w => by unfold Spec.scalar; fun_prop
  have c2 : ∀ w, Continuous fun z : ℝ => den w q om p 0 z := fun w => by unfold den; fun_prop
  have h3 := avg_sum (q := q) (m := m) (f := ![fun w z => Spec.scalar w z / den w q om p 0 z, Spec.scalar, fun w z => den w q om p 0 z])
    ![-(s + m ^ 2) ^ 2 / (4 * m ^ 2), -(m ^ 2 - s) / (2 * m ^ 2), -1 / (4 * m ^ 2)] (by
    intro i
    fin_cases i
    · exact AngCont.div_den c1 r0
    · exact AngCont.of_continuous c1 q m
    · exact AngCont.of_continuous c2 q m)
  simp only [Fin.sum_univ_succ, Fin.sum_univ_zero, Matrix.cons_val_zero, Matrix.cons_val_succ, Fin.succ_zero_eq_one] at h3
  rw [line_avg beta (R := fun w z => -(s + m ^ 2) ^ 2 / (4 * m ^ 2) * (Spec.scalar w z / den w q om p 0 z)
    + (-(m ^ 2 - s) / (2 * m ^ 2) * Spec.scalar w z + (-1 / (4 * m ^ 2) * den w q om p 0 z + 0))) fun z hz w hw => ?_, leg_avg, tadpole_avg]
  · refine (congrArg (lineW q m beta * ·) h3).trans ?_
    rw [avg_den, ← hs]
    field_simp
    ring
  · have hw2 := shell_sq hw
    have hx : w ^ 2 + (q : ℂ) ^ 2 = -m ^ 2 := by rw [hw2]; ring
    have hx0 : w ^ 2 + (q : ℂ) ^ 2 ≠ 0 := by rw [hx]; exact neg_ne_zero.2 hm2
    have h0 : w ≠ 0 := by rcases hw with rfl | rfl <;> simp [hE]
    have hy : den w q om p 0 z ≠ 0 := by
      rcases hw with rfl | rfl
      · exact (r0 z hz).1
      · exact (r0 z hz).2
    have c1 : ContinuousAt (fun u : ℂ => u ^ 2 + (q : ℂ) ^ 2) w := by fun_prop
    have c2 := (contAt_den q om p z).continuousAt (x := w)
    have hc : ContinuousAt (fun u => -hX (u ^ 2 + (q : ℂ) ^ 2) (den u q om p 0 z) s / den u q om p 0 z) w := by
      unfold hX
      exact ((continuousAt_const.sub ((((c2.sub c1).sub continuousAt_const).pow 2).div (continuousAt_const.mul c1)
        (mul_ne_zero (by norm_num) hx0))).neg).div c2 hy
    rw [atPole_eq (by rw [hw2, en_sq]; ring) h0 hc ?_]
    · simp only [hx, Spec.scalar, hX]
      generalize den w q om p 0 z = y at *
      generalize m ^ 2 = M at *
      field_simp
      ring
    · filter_upwards [c1.eventually_ne hx0] with u h1 _
      rw [hF u z hz h1, en_sq, hs, div_div]
      congr 1; ring

theorem ghostSE_massless_line {F : Vec → ℂ} {m : ℂ} (hF : ∀ q0 : ℂ, ∀ z ∈ Set.Icc (-1 : ℝ) 1, q0 ^ 2 + (q : ℂ) ^ 2 ≠ 0 →
      F (loopMomentum q0 q z) = -hX (q0 ^ 2 + (q : ℂ) ^ 2) (den q0 q om p 0 z) (om ^ 2 + p ^ 2) / ((q0 ^ 2 + (q : ℂ) ^ 2 + m ^ 2) * den q0 q om p 0 z))
    (hm : m ≠ 0) (hE : en q 0 ≠ 0) (r0 : RegularLeg q om p 0 0) (beta : ℝ) :
    line F q 0 beta = (om ^ 2 + p ^ 2) ^ 2 / (4 * m ^ 2) * leg Spec.scalar q om p 0 0 beta
      - (om ^ 2 + p ^ 2) / (4 * m ^ 2) * tadpole Spec.scalar q 0 beta := by
  have hm2 : m ^ 2 ≠ 0 := pow_ne_zero 2 hm
  obtain ⟨s, hs⟩ : ∃ s, s = om ^ 2 + p ^ 2 := ⟨_, rfl⟩
  have c1 : ∀ w, Continuous fun z : ℝ => Spec.scalar w z := fun w => by unfold Spec.scalar; fun_prop
  have c2 : ∀ w, Continuous fun z : ℝ => den w q om p 0 z := fun w => by unfold den; fun_prop
  have h3 := avg_sum (q := q) (m := 0) (f := ![fun w z => Spec.scalar w z / den w q om p 0 z, Spec.scalar, fun w z => den w q om p 0 z])
    ![s ^ 2 / (4 * m ^ 2), -s / (2 * m ^ 2), 1 / (4 * m ^ 2)] (by
    intro i
    fin_cases i
    · exact AngCont.div_den c1 r0
    · exact AngCont.of_continuous c1 q 0
    · exact AngCont.of_continuous c2 q 0)
  simp only [Fin.sum_univ_succ, Fin.sum_univ_zero, Matrix.cons_val_zero, Matrix.cons_val_succ, Fin.succ_zero_eq_one] at h3
  rw [line_avg beta (R := fun w z => s ^ 2 / (4 * m ^ 2) * (Spec.scalar w z / den w q om p 0 z)
    + (-s / (2 * m ^ 2) * Spec.scalar w z + (1 / (4 * m ^ 2) * den w q om p 0 z + 0))) fun z hz w hw => ?_, leg_avg, tadpole_avg]
  · refine (congrArg (lineW q 0 beta * ·) h3).trans ?_
    rw [avg_den, ← hs]
    field_simp
    ring
  · have hw2 := shell_sq hw
    have hx : w ^ 2 + (q : ℂ) ^ 2 = 0 := by rw [hw2]; ring
    have h0 : w ≠ 0 := by rcases hw with rfl | rfl <;> simp [hE]
    have hy : den w q om p 0 z ≠ 0 := by
      rcases hw with rfl | rfl
      · exact (r0 z hz).1
      · exact (r0 z hz).2
    have c1 : ContinuousAt (fun u : ℂ => u ^ 2 + (q : ℂ) ^ 2) w := by fun_prop
    have c2 := (contAt_den q om p z).continuousAt (x := w)
    have c6 : ContinuousAt (fun u : ℂ => u ^ 2 + (q : ℂ) ^ 2 + m ^ 2) w := by fun_prop
    have h6 : w ^ 2 + (q : ℂ) ^ 2 + m ^ 2 ≠ 0 := by rw [hx, zero_add]; exact hm2
    have hc : ContinuousAt (fun u => -((u ^ 2 + (q : ℂ) ^ 2) * s - (den u q om p 0 z - (u ^ 2 + (q : ℂ) ^ 2) - s) ^ 2 / 4)
        / ((u ^ 2 + (q : ℂ) ^ 2 + m ^ 2) * den u q om p 0 z)) w :=
      ((c1.mul continuousAt_const).sub ((((c2.sub c1).sub continuousAt_const).pow 2).div_const 4)).neg.div (c6.mul c2) (mul_ne_zero h6 hy)
    rw [atPole_eq (by rw [hw2, en_sq]; ring) h0 hc ?_]
    · simp only [hx, Spec.scalar, zero_add, zero_mul, sub_zero]
      generalize den w q om p 0 z = y at *
      generalize m ^ 2 = M at *
      field_simp
      ring
    · have e0 : en q 0 ^ 2 = (q : ℂ) ^ 2 := by rw [en_sq]; ring
      rw [e0]
      filter_upwards [c6.eventually_ne h6, c2.eventually_ne hy] with u h1 h2 h3
      rw [hF u z hz h3, ← hs, hX]
      field_simp

theorem ghostSE_ghost_line {F : Vec → ℂ} {m : ℂ} (hF : ∀ q0 : ℂ, ∀ z ∈ Set.Icc (-1 : ℝ) 1, den q0 q om p 0 z ≠ 0 →
      F (loopMomentum q0 q z) = -hX (den q0 q om p 0 z) (q0 ^ 2 + (q : ℂ) ^ 2) (om ^ 2 + p ^ 2) / ((den q0 q om p 0 z + m ^ 2) * (q0 ^ 2 + (q : ℂ) ^ 2)))
    (hm : m ≠ 0) (hE : en q 0 ≠ 0) (r0 : RegularLeg q om p 0 0) (rm : RegularLeg q om p 0 m) (beta : ℝ) :
    line F q 0 beta = (om ^ 2 + p ^ 2) ^ 2 / (4 * m ^ 2) * leg Spec.scalar q om p 0 0 beta
      - (om ^ 2 + p ^ 2 + m ^ 2) ^ 2 / (4 * m ^ 2) * leg Spec.scalar q om p 0 m beta + 1 / 4 * tadpole Spec.scalar q 0 beta := by
  have hm2 : m ^ 2 ≠ 0 := pow_ne_zero 2 hm
  obtain ⟨s, hs⟩ : ∃ s, s = om ^ 2 + p ^ 2 := ⟨_, rfl⟩
  have c1 : ∀ w, Continuous fun z : ℝ => Spec.scalar w z := fun w => by unfold Spec.scalar; fun_prop
  have h3 := avg_sum (q := q) (m := 0) (f := ![fun w z => Spec.scalar w z / den w q om p 0 z, fun w z => Spec.scalar w z / den w q om p m z, Spec.scalar])
    ![s ^ 2 / (4 * m ^ 2), -(s + m ^ 2) ^ 2 / (4 * m ^ 2), 1 / 4] (by
    intro i
    fin_cases i
    · exact AngCont.div_den c1 r0
    · exact AngCont.div_den c1 rm
    · exact AngCont.of_continuous c1 q 0)
  simp only [Fin.sum_univ_succ, Fin.sum_univ_zero, Matrix.cons_val_zero, Matrix.cons_val_succ, Fin.succ_zero_eq_one] at h3
  rw [line_avg beta (R := fun w z => s ^ 2 / (4 * m ^ 2) * (Spec.scalar w z / den w q om p 0 z)
    + (-(s + m ^ 2) ^ 2 / (4 * m ^ 2) * (Spec.scalar w z / den w q om p m z) + (1 / 4 * Spec.scalar w z + 0))) fun z hz w hw => ?_, leg_avg, leg_avg, tadpole_avg]
  · refine (congrArg (lineW q 0 beta * ·) h3).trans ?_
    rw [← hs]
    ring
  · have hw2 := shell_sq hw
    have hx : w ^ 2 + (q : ℂ) ^ 2 = 0 := by rw [hw2]; ring
    have h0 : w ≠ 0 := by rcases hw with rfl | rfl <;> simp [hE]
    have hy : den w q om p 0 z ≠ 0 := by
      rcases hw with rfl | rfl
      · exact (r0 z hz).1
      · exact (r0 z hz).2
    have hym : den w q om p m z ≠ 0 := by
      rcases hw with rfl | rfl
      · exact (rm z hz).1
      · exact (rm z hz).2
    have c1 : ContinuousAt (fun u : ℂ => u ^ 2 + (q : ℂ) ^ 2) w := by fun_prop
    have c2 := (contAt_den q om p z).continuousAt (x := w)
    have c5 : ContinuousAt (fun u : ℂ => den u q om p m z) w := by unfold den; fun_prop
    have hc : ContinuousAt (fun u => -hX (den u q om p 0 z) (u ^ 2 + (q : ℂ) ^ 2) s / den u q om p m z) w := by
      unfold hX
      exact ((continuousAt_const.sub ((((c1.sub c2).sub continuousAt_const).pow 2).div (continuousAt_const.mul c2)
        (mul_ne_zero (by norm_num) hy))).neg).div c5 hym
    rw [atPole_eq (by rw [hw2, en_sq]; ring) h0 hc ?_]
    · simp only [hx, Spec.scalar, hX]
      rw [den_mass w q om p m] at hym ⊢
      generalize den w q om p 0 z = y at *
      generalize m ^ 2 = M at *
      field_simp
      ring
    · have e0 : en q 0 ^ 2 = (q : ℂ) ^ 2 := by rw [en_sq]; ring
      rw [e0]
      filter_upwards [c2.eventually_ne hy] with u h2 h3
      rw [hF u z hz h2, ← hs, den_mass u q om p m, div_div]

end ghost

end Qcd
