import Mathlib.Algebra.MvPolynomial.Monad
import Mathlib.Algebra.MvPolynomial.Polynomial
import Mathlib.Topology.Algebra.MvPolynomial
import Verif.Lemmas.MatsubaraPoles
import Verif.Lemmas.Spherical
import Verif.Lemmas.Domination
import Verif.Lemmas.DiagramAssembly
import Verif.Spec.Matsubara

/-! # Thermal part of a one-loop diagram, integrated over the spatial momentum -/

namespace Qcd.Matsubara
open Filter Topology Complex MeasureTheory Set
open Spec (Vec msq external fourMomentum atPole line)
open scoped Real

/-! ### Kinematics -/

/-- Square of a spatial momentum. -/
def r2 (v : ℝ × ℝ × ℝ) : ℝ := v.1 ^ 2 + v.2.1 ^ 2 + v.2.2 ^ 2

theorem r2_nonneg (v : ℝ × ℝ × ℝ) : 0 ≤ r2 v := by unfold r2; positivity

theorem norm_sq_le_r2 (v : ℝ × ℝ × ℝ) : ‖v‖ ^ 2 ≤ r2 v := by
  have h : ‖v‖ = |v.1| ∨ ‖v‖ = |v.2.1| ∨ ‖v‖ = |v.2.2| := by
    rw [Prod.norm_def, Prod.norm_def]
    simp only [Real.norm_eq_abs]
    rcases max_choice |v.1| (max |v.2.1| |v.2.2|) with h | h
    · exact .inl h
    · rcases max_choice |v.2.1| |v.2.2| with h' | h'
      · exact .inr (.inl (h.trans h'))
      · exact .inr (.inr (h.trans h'))
  unfold r2
  rcases h with h | h | h <;> rw [h, sq_abs] <;> nlinarith [sq_nonneg v.1, sq_nonneg v.2.1, sq_nonneg v.2.2]

theorem r2_pos {v : ℝ × ℝ × ℝ} (hv : v ≠ 0) : 0 < r2 v :=
  lt_of_lt_of_le (by have := norm_pos_iff.2 hv; positivity) (norm_sq_le_r2 v)

theorem r2_le (v : ℝ × ℝ × ℝ) : r2 v ≤ 4 * ‖v‖ ^ 2 := by
  have h1 : |v.1| ≤ ‖v‖ := norm_fst_le v
  have h2 : |v.2.1| ≤ ‖v‖ := (norm_fst_le v.2).trans (norm_snd_le v)
  have h3 : |v.2.2| ≤ ‖v‖ := (norm_snd_le v.2).trans (norm_snd_le v)
  have := sq_le_sq' (by linarith [abs_nonneg v.1, norm_nonneg v]) h1
  have := sq_le_sq' (by linarith [abs_nonneg v.2.1, norm_nonneg v]) h2
  have := sq_le_sq' (by linarith [abs_nonneg v.2.2, norm_nonneg v]) h3
  simp only [sq_abs] at *
  unfold r2
  nlinarith [sq_nonneg ‖v‖]

/-- Energy. -/
noncomputable def en3 (m : ℝ) (v : ℝ × ℝ × ℝ) : ℝ := √(r2 v + m ^ 2)

theorem en3_sq (m : ℝ) (v : ℝ × ℝ × ℝ) : en3 m v ^ 2 = r2 v + m ^ 2 := Real.sq_sqrt (by have := r2_nonneg v; positivity)

theorem en3_nonneg (m : ℝ) (v : ℝ × ℝ × ℝ) : 0 ≤ en3 m v := Real.sqrt_nonneg _

theorem norm_le_en3 (m : ℝ) (v : ℝ × ℝ × ℝ) : ‖v‖ ≤ en3 m v := by
  refine Real.le_sqrt_of_sq_le ?_
  nlinarith [norm_sq_le_r2 v, sq_nonneg m]

theorem abs_le_en3 (m : ℝ) (v : ℝ × ℝ × ℝ) : |m| ≤ en3 m v := by
  refine Real.le_sqrt_of_sq_le ?_
  rw [sq_abs]; linarith [r2_nonneg v]

theorem en3_le (m : ℝ) (v : ℝ × ℝ × ℝ) : en3 m v ≤ 2 * ‖v‖ + |m| := by
  rw [en3, Real.sqrt_le_left (by positivity)]
  have : m ^ 2 = |m| ^ 2 := (sq_abs m).symm
  nlinarith [r2_le v, mul_nonneg (norm_nonneg v) (abs_nonneg m)]

theorem en3_pos (m : ℝ) {v : ℝ × ℝ × ℝ} (hv : v ≠ 0) : 0 < en3 m v := (norm_pos_iff.2 hv).trans_le (norm_le_en3 m v)

theorem msq_fourMomentum (q0 : ℂ) (v : ℝ × ℝ × ℝ) : msq (fourMomentum q0 v) = q0 ^ 2 + (r2 v : ℂ) := by
  simp [msq, fourMomentum, dotProduct, Fin.sum_univ_succ, r2]
  ring

theorem external_add (om p : ℝ) (q0 : ℂ) (v : ℝ × ℝ × ℝ) :
    external om p + fourMomentum q0 v = fourMomentum (om + q0) (p + v.1, v.2.1, v.2.2) := by
  ext i; fin_cases i <;> simp [external, fourMomentum]

theorem neg_fourMomentum (q0 : ℂ) (v : ℝ × ℝ × ℝ) : -fourMomentum q0 v = fourMomentum (-q0) (-v) := by
  ext i; fin_cases i <;> simp [fourMomentum]

theorem msq_sum3 (om p : ℝ) (q0 : ℂ) (v : ℝ × ℝ × ℝ) :
    msq (external om p + fourMomentum q0 v) = (q0 + om) ^ 2 + (r2 (p + v.1, v.2.1, v.2.2) : ℂ) := by
  rw [external_add, msq_fourMomentum, add_comm q0]

theorem msq_neg (Q : Vec) : msq (-Q) = msq Q := by simp [msq]

theorem norm_fourMomentum_le (q0 : ℂ) (v : ℝ × ℝ × ℝ) : ‖fourMomentum q0 v‖ ≤ ‖q0‖ + ‖v‖ := by
  have h1 : |v.1| ≤ ‖v‖ := norm_fst_le v
  have h2 : |v.2.1| ≤ ‖v‖ := (norm_fst_le v.2).trans (norm_snd_le v)
  have h3 : |v.2.2| ≤ ‖v‖ := (norm_snd_le v.2).trans (norm_snd_le v)
  have h0 := norm_nonneg q0
  rw [pi_norm_le_iff_of_nonneg (by positivity)]
  intro i
  fin_cases i <;> simp [fourMomentum] <;> linarith

theorem poly_bound (f : MvPolynomial (Fin 4) ℂ) : ∃ (C : ℝ) (n : ℕ), 0 ≤ C ∧ ∀ Q : Vec, ‖MvPolynomial.eval Q f‖ ≤ C * (1 + ‖Q‖) ^ n := by
  induction f using MvPolynomial.induction_on with
  | C c => exact ⟨‖c‖, 0, norm_nonneg _, fun Q => by simp⟩
  | add f g hf hg =>
    obtain ⟨C, n, hC, h⟩ := hf
    obtain ⟨D, k, hD, h'⟩ := hg
    refine ⟨C + D, max n k, by positivity, fun Q => ?_⟩
    rw [map_add]
    have h1 : (1 : ℝ) ≤ 1 + ‖Q‖ := by linarith [norm_nonneg Q]
    calc _ ≤ C * (1 + ‖Q‖) ^ n + D * (1 + ‖Q‖) ^ k := (norm_add_le _ _).trans (add_le_add (h Q) (h' Q))
      _ ≤ C * (1 + ‖Q‖) ^ max n k + D * (1 + ‖Q‖) ^ max n k :=
        add_le_add (mul_le_mul_of_nonneg_left (pow_le_pow_right₀ h1 (le_max_left _ _)) hC)
          (mul_le_mul_of_nonneg_left (pow_le_pow_right₀ h1 (le_max_right _ _)) hD)
      _ = _ := by ring
  | mul_X f i hf =>
    obtain ⟨C, n, hC, h⟩ := hf
    refine ⟨C, n + 1, hC, fun Q => ?_⟩
    rw [map_mul, MvPolynomial.eval_X, norm_mul, pow_succ, ← mul_assoc]
    refine mul_le_mul (h Q) ?_ (norm_nonneg _) (by have := norm_nonneg Q; positivity)
    linarith [norm_le_pi_norm Q i]

/-! ### Diagrams -/

section diagram
variable {A B : Type} [Fintype A] [Fintype B] [DecidableEq A] [DecidableEq B] {m : A → ℝ} {k : B → ℝ} {om p : ℝ}
  {f : MvPolynomial (Fin 4) ℂ} {F : Vec → ℂ}

/-- A polynomial over propagators of momenta `Q` and `P + Q`, symmetric around the direction of `P`. -/
structure IsDiagram (om p : ℝ) (m : A → ℝ) (k : B → ℝ) (f : MvPolynomial (Fin 4) ℂ) (F : Vec → ℂ) : Prop where
  eq : ∀ Q, (∀ a, msq Q + (m a : ℂ) ^ 2 ≠ 0) → (∀ b, msq (external om p + Q) + (k b : ℂ) ^ 2 ≠ 0) →
    F Q = MvPolynomial.eval Q f / ((∏ a, (msq Q + (m a : ℂ) ^ 2)) * ∏ b, (msq (external om p + Q) + (k b : ℂ) ^ 2))
  axis : ∀ q0 v, MvPolynomial.eval (fourMomentum q0 v) f = MvPolynomial.eval (fourMomentum q0 (v.1, √(v.2.1 ^ 2 + v.2.2 ^ 2), 0)) f

/-- The momentum of the other line. -/
def swapped (om p : ℝ) (F : Vec → ℂ) (Q : Vec) : ℂ := F (-(external om p + Q))

theorem swapped_fourMomentum (om p : ℝ) (F : Vec → ℂ) (q0 : ℂ) (v : ℝ × ℝ × ℝ) :
    swapped om p F (fourMomentum q0 v) = F (fourMomentum (-(om + q0)) (-(p + v.1), -v.2.1, -v.2.2)) := by
  rw [swapped, external_add, neg_fourMomentum]; rfl

theorem eval_swapped (om p : ℝ) (f : MvPolynomial (Fin 4) ℂ) (Q : Vec) :
    MvPolynomial.eval Q (MvPolynomial.bind₁ (fun i => -(MvPolynomial.C (external om p i) + MvPolynomial.X i)) f)
      = MvPolynomial.eval (-(external om p + Q)) f := by
  simp only [MvPolynomial.eval, MvPolynomial.eval₂Hom_bind₁]
  congr 2
  ext i
  simp

theorem IsDiagram.swap (h : IsDiagram om p m k f F) :
    IsDiagram om p k m (MvPolynomial.bind₁ (fun i => -(MvPolynomial.C (external om p i) + MvPolynomial.X i)) f) (swapped om p F) where
  eq Q h1 h2 := by
    have e0 : external om p + -(external om p + Q) = -Q := by ext i; simp
    rw [swapped, h.eq _ (by rw [msq_neg]; exact h2) (by rw [e0, msq_neg]; exact h1)]
    simp only [e0, msq_neg]
    rw [mul_comm (∏ a, _), eval_swapped]
  axis q0 v := by
    rw [eval_swapped, eval_swapped, external_add, external_add, neg_fourMomentum, neg_fourMomentum]
    refine (h.axis _ _).trans (Eq.trans ?_ (h.axis _ _).symm)
    simp only [Prod.fst_neg, Prod.snd_neg, neg_sq]
    congr 4
    simp only [ne_eq, OfNat.ofNat_ne_zero, not_false_eq_true, zero_pow, add_zero, Real.sqrt_sq (Real.sqrt_nonneg _)]

/-- The diagram with the line of mass `m a` on shell. -/
noncomputable def shell (om p : ℝ) (m : A → ℝ) (k : B → ℝ) (f : MvPolynomial (Fin 4) ℂ) (a : A) (w : ℂ) (v : ℝ × ℝ × ℝ) : ℂ :=
  MvPolynomial.eval (fourMomentum w v) f /
    ((∏ a' ∈ Finset.univ.erase a, ((m a' : ℂ) ^ 2 - (m a : ℂ) ^ 2)) * ∏ b, (msq (external om p + fourMomentum w v) + (k b : ℂ) ^ 2))

theorem other_im {E : ℝ} {w : ℂ} (hw : w = I * E ∨ w = -(I * E)) (v : ℝ × ℝ × ℝ) (c : ℝ) :
    |(msq (external om p + fourMomentum w v) + (c : ℂ) ^ 2).im| = 2 * |om| * |E| := by
  rw [msq_sum3, ← Complex.ofReal_pow]
  rcases hw with rfl | rfl <;> simp [pow_two]
  · rw [show om * E + E * om = 2 * om * E by ring, abs_mul, abs_mul, abs_two]
  · rw [show -(om * E) + -(E * om) = -(2 * om * E) by ring, abs_neg, abs_mul, abs_mul, abs_two]

theorem other_ne {E : ℝ} (ho : om ≠ 0) (hE : 0 < E) {w : ℂ} (hw : w = I * E ∨ w = -(I * E)) (v : ℝ × ℝ × ℝ) (c : ℝ) :
    msq (external om p + fourMomentum w v) + (c : ℂ) ^ 2 ≠ 0 := by
  intro h
  have := other_im (om := om) (p := p) hw v c
  rw [h] at this
  have h1 := abs_pos.2 ho
  have h2 := abs_pos.2 hE.ne'
  simp at this
  rcases this with h | h
  · exact ho h
  · exact hE.ne' h

theorem IsDiagram.atPole (h : IsDiagram om p m k f F) (hm : Function.Injective fun a => m a ^ 2) (ho : om ≠ 0) (a : A) {v : ℝ × ℝ × ℝ}
    (hE : 0 < en3 (m a) v) {w : ℂ} (hw : w = I * en3 (m a) v ∨ w = -(I * en3 (m a) v)) :
    atPole (fun q0 => F (fourMomentum q0 v)) (en3 (m a) v) w = shell om p m k f a w v := by
  have hEc : (en3 (m a) v : ℂ) ≠ 0 := by exact_mod_cast hE.ne'
  have hw2 : w ^ 2 = -(en3 (m a) v : ℂ) ^ 2 := by
    rcases hw with rfl | rfl
    · rw [mul_pow, I_sq]; ring
    · rw [neg_sq, mul_pow, I_sq]; ring
  have hw0 : w ≠ 0 := by
    intro h0
    rw [h0] at hw2
    exact hEc (by simpa using hw2.symm)
  have hEs : (en3 (m a) v : ℂ) ^ 2 = r2 v + (m a : ℂ) ^ 2 := by exact_mod_cast en3_sq (m a) v
  have e1 : ∀ a', msq (fourMomentum w v) + (m a' : ℂ) ^ 2 = (m a' : ℂ) ^ 2 - (m a : ℂ) ^ 2 := fun a' => by
    rw [msq_fourMomentum, hw2, hEs]; ring
  have n1 : ∀ a' ∈ Finset.univ.erase a, (m a' : ℂ) ^ 2 - (m a : ℂ) ^ 2 ≠ 0 := fun a' ha' => by
    rw [sub_ne_zero]
    intro h0
    exact Finset.ne_of_mem_erase ha' (hm (by exact_mod_cast h0))
  have n2 : ∀ b, msq (external om p + fourMomentum w v) + (k b : ℂ) ^ 2 ≠ 0 := fun b => other_ne ho hE hw v (k b)
  have c1 : ∀ a', Continuous fun q0 : ℂ => msq (fourMomentum q0 v) + (m a' : ℂ) ^ 2 := fun a' => by
    simp only [msq_fourMomentum]; fun_prop
  have c2 : ∀ b, Continuous fun q0 : ℂ => msq (external om p + fourMomentum q0 v) + (k b : ℂ) ^ 2 := fun b => by
    simp only [msq_sum3]; fun_prop
  have c3 : Continuous fun q0 : ℂ => MvPolynomial.eval (fourMomentum q0 v) f := by
    refine (MvPolynomial.continuous_eval f).comp ?_
    refine continuous_pi fun i => ?_
    fin_cases i <;> simp [fourMomentum] <;> fun_prop
  have key : Tendsto (fun q0 : ℂ => MvPolynomial.eval (fourMomentum q0 v) f /
      ((∏ a' ∈ Finset.univ.erase a, (msq (fourMomentum q0 v) + (m a' : ℂ) ^ 2)) * ∏ b, (msq (external om p + fourMomentum q0 v) + (k b : ℂ) ^ 2)))
      (𝓝[≠] w) (𝓝 (shell om p m k f a w v)) := by
    refine tendsto_nhdsWithin_of_tendsto_nhds ?_
    have : ContinuousAt (fun q0 : ℂ => MvPolynomial.eval (fourMomentum q0 v) f /
      ((∏ a' ∈ Finset.univ.erase a, (msq (fourMomentum q0 v) + (m a' : ℂ) ^ 2)) * ∏ b, (msq (external om p + fourMomentum q0 v) + (k b : ℂ) ^ 2))) w := by
      refine c3.continuousAt.div ?_ ?_
      · exact ((continuous_finset_prod _ fun a' _ => c1 a').mul (continuous_finset_prod _ fun b _ => c2 b)).continuousAt
      · simp only [e1]
        exact mul_ne_zero (Finset.prod_ne_zero_iff.2 n1) (Finset.prod_ne_zero_iff.2 fun b _ => n2 b)
    have h2 := this.tendsto
    simp only [e1] at h2
    exact h2
  refine (key.congr' ?_).limUnder_eq
  have ev1 : ∀ a' ∈ Finset.univ.erase a, ∀ᶠ q0 in 𝓝[≠] w, msq (fourMomentum q0 v) + (m a' : ℂ) ^ 2 ≠ 0 := fun a' ha' =>
    nhdsWithin_le_nhds ((c1 a').continuousAt.eventually_ne (by rw [e1]; exact n1 a' ha'))
  have ev2 : ∀ᶠ q0 in 𝓝[≠] w, ∀ b, msq (external om p + fourMomentum q0 v) + (k b : ℂ) ^ 2 ≠ 0 := by
    rw [Filter.eventually_all]
    exact fun b => nhdsWithin_le_nhds ((c2 b).continuousAt.eventually_ne (n2 b))
  have ev3 : ∀ᶠ q0 in 𝓝[≠] w, q0 ≠ -w := nhdsWithin_le_nhds (continuousAt_id.eventually_ne fun h0 => hw0 (by
    have h1 : w = -w := h0
    have : (2 : ℂ) * w = 0 := by linear_combination h1
    simpa using this))
  have ev1' := (Finset.eventually_all (Finset.univ.erase a)).2 ev1
  filter_upwards [ev1', ev2, ev3, self_mem_nhdsWithin] with q0 h1 h2 h3 h4
  have h5 : q0 ^ 2 + (en3 (m a) v : ℂ) ^ 2 ≠ 0 := by
    have : q0 ^ 2 + (en3 (m a) v : ℂ) ^ 2 = (q0 - w) * (q0 + w) := by linear_combination hw2
    rw [this]
    exact mul_ne_zero (sub_ne_zero.2 h4) (fun h0 => h3 (by linear_combination h0))
  have h6 : msq (fourMomentum q0 v) + (m a : ℂ) ^ 2 = q0 ^ 2 + (en3 (m a) v : ℂ) ^ 2 := by rw [msq_fourMomentum, hEs]; ring
  rw [h.eq _ (fun a' => ?_) h2, ← Finset.mul_prod_erase _ _ (Finset.mem_univ a), h6]
  · field_simp
  · by_cases ha : a' = a
    · rw [ha, h6]; exact h5
    · exact h1 a' (Finset.mem_erase.2 ⟨ha, Finset.mem_univ _⟩)

/-! ### Bounds -/

theorem other_re {m : ℝ} {v : ℝ × ℝ × ℝ} {w : ℂ} (hw : w = I * en3 m v ∨ w = -(I * en3 m v)) (c : ℝ) :
    (msq (external om p + fourMomentum w v) + (c : ℂ) ^ 2).re = om ^ 2 + p ^ 2 + c ^ 2 - m ^ 2 + 2 * p * v.1 := by
  have h := en3_sq m v
  rw [msq_sum3, ← Complex.ofReal_pow]
  rcases hw with rfl | rfl <;> simp [pow_two, r2] at * <;> linarith

theorem other_bound (ho : om ≠ 0) (p m c : ℝ) : ∃ d > 0, ∀ v : ℝ × ℝ × ℝ, ∀ w : ℂ, (w = I * en3 m v ∨ w = -(I * en3 m v)) →
    d ≤ ‖msq (external om p + fourMomentum w v) + (c : ℂ) ^ 2‖ := by
  have hop := abs_pos.2 ho
  by_cases hm : m = 0
  · subst hm
    obtain ⟨e, he⟩ : ∃ e, e = om ^ 2 / (4 * |p| + 1) := ⟨_, rfl⟩
    have hp1 : 0 < 4 * |p| + 1 := by positivity
    have he0 : 0 < e := by rw [he]; positivity
    refine ⟨min (om ^ 2 / 2) (2 * |om| * e), lt_min (by positivity) (by positivity), fun v w hw => ?_⟩
    rcases le_total (en3 0 v) e with h | h
    · refine (min_le_left _ _).trans (le_trans ?_ (Complex.abs_re_le_norm _))
      rw [other_re hw]
      have h1 : |v.1| ≤ e := (norm_fst_le v).trans ((norm_le_en3 0 v).trans h)
      have h2 : |2 * p * v.1| ≤ om ^ 2 / 2 := by
        rw [abs_mul, abs_mul, abs_two]
        have h3 : e * (4 * |p| + 1) = om ^ 2 := by rw [he]; field_simp
        nlinarith [mul_le_mul_of_nonneg_left h1 (abs_nonneg p)]
      have := (abs_le.1 h2).1
      refine le_trans ?_ (le_abs_self _)
      nlinarith [sq_nonneg p, sq_nonneg c]
    · refine (min_le_right _ _).trans (le_trans ?_ (Complex.abs_im_le_norm _))
      rw [other_im hw, abs_of_nonneg (en3_nonneg 0 v)]
      gcongr
  · refine ⟨2 * |om| * |m|, by have := abs_pos.2 hm; positivity, fun v w hw => ?_⟩
    refine le_trans ?_ (Complex.abs_im_le_norm _)
    rw [other_im hw, abs_of_nonneg (en3_nonneg m v)]
    gcongr
    exact abs_le_en3 m v

theorem shell_bound (ho : om ≠ 0) (m : A → ℝ) (k : B → ℝ) (f : MvPolynomial (Fin 4) ℂ) (a : A) :
    ∃ (C : ℝ) (n : ℕ), 0 ≤ C ∧ ∀ v : ℝ × ℝ × ℝ, ∀ w : ℂ, (w = I * en3 (m a) v ∨ w = -(I * en3 (m a) v)) →
      ‖shell om p m k f a w v‖ ≤ C * (1 + ‖v‖) ^ n := by
  obtain ⟨C, n, hC, hf⟩ := poly_bound f
  choose d hd hb using fun b => other_bound ho p (m a) (k b)
  have hD : 0 < ∏ b, d b := Finset.prod_pos fun b _ => hd b
  refine ⟨C * (3 + |m a|) ^ n * (‖∏ a' ∈ Finset.univ.erase a, ((m a' : ℂ) ^ 2 - (m a : ℂ) ^ 2)‖⁻¹ * (∏ b, d b)⁻¹), n, by positivity,
    fun v w hw => ?_⟩
  have hwn : ‖w‖ = en3 (m a) v := by
    rcases hw with rfl | rfl <;> simp [abs_of_nonneg (en3_nonneg (m a) v)]
  have h1 : ‖MvPolynomial.eval (fourMomentum w v) f‖ ≤ C * (3 + |m a|) ^ n * (1 + ‖v‖) ^ n := by
    refine (hf _).trans ?_
    rw [mul_assoc, ← mul_pow]
    gcongr
    have := norm_fourMomentum_le w v
    rw [hwn] at this
    have h2 := en3_le (m a) v
    nlinarith [mul_nonneg (abs_nonneg (m a)) (norm_nonneg v), norm_nonneg v]
  have h2 : ∏ b, d b ≤ ‖∏ b, (msq (external om p + fourMomentum w v) + (k b : ℂ) ^ 2)‖ := by
    rw [norm_prod]
    exact Finset.prod_le_prod (fun b _ => (hd b).le) fun b _ => hb b v w hw
  rw [shell, norm_div, norm_mul, div_eq_mul_inv, mul_inv]
  calc _ ≤ C * (3 + |m a|) ^ n * (1 + ‖v‖) ^ n * (‖∏ a' ∈ Finset.univ.erase a, ((m a' : ℂ) ^ 2 - (m a : ℂ) ^ 2)‖⁻¹ * (∏ b, d b)⁻¹) := by
        gcongr
    _ = _ := by ring

theorem bose_cast (beta E : ℝ) : Spec.bose beta E = (((Real.exp (E * beta) - 1)⁻¹ : ℝ) : ℂ) := by
  rw [Spec.bose]; push_cast; rw [one_div, mul_comm]

theorem bose_norm_le {beta E : ℝ} (hb : 0 < beta) (hE : 0 < E) : ‖Spec.bose beta E‖ ≤ Real.exp (-(E * beta / 2)) / (E * beta) := by
  have h := bose_bound hE hb
  rw [boseZ_real] at h
  rw [bose_cast, Complex.norm_real, Real.norm_of_nonneg h.1]
  exact h.2

/-! ### The line on shell -/

/-- The line of mass `M` on shell, both signs of the energy, with its weight. -/
noncomputable def onShell (F : Vec → ℂ) (beta M : ℝ) (v : ℝ × ℝ × ℝ) : ℂ :=
  Spec.bose beta (en3 M v) / (2 * en3 M v) * (Spec.atPole (fun q0 => F (fourMomentum q0 v)) (en3 M v) (I * en3 M v)
    + Spec.atPole (fun q0 => F (fourMomentum q0 v)) (en3 M v) (-(I * en3 M v)))

/-- The same, explicitly, with the momentum in a plane. -/
noncomputable def planar (om p : ℝ) (m : A → ℝ) (k : B → ℝ) (f : MvPolynomial (Fin 4) ℂ) (a : A) (beta : ℝ) (u : ℝ × ℝ) : ℂ :=
  Spec.bose beta (en3 (m a) (u.1, u.2, 0)) / (2 * en3 (m a) (u.1, u.2, 0)) *
    (shell om p m k f a (I * en3 (m a) (u.1, u.2, 0)) (u.1, u.2, 0) + shell om p m k f a (-(I * en3 (m a) (u.1, u.2, 0))) (u.1, u.2, 0))

theorem measurable_shell (om p : ℝ) (m : A → ℝ) (k : B → ℝ) (f : MvPolynomial (Fin 4) ℂ) (a : A) {w : ℝ × ℝ → ℂ} (hw : Measurable w) :
    Measurable fun u : ℝ × ℝ => shell om p m k f a (w u) (u.1, u.2, 0) := by
  have h1 : Measurable fun u : ℝ × ℝ => fourMomentum (w u) (u.1, u.2, 0) := by
    refine measurable_pi_lambda _ fun i => ?_
    fin_cases i <;> simp [fourMomentum] <;> fun_prop
  have h2 : Measurable fun u : ℝ × ℝ => MvPolynomial.eval (fourMomentum (w u) (u.1, u.2, 0)) f :=
    (MvPolynomial.continuous_eval f).measurable.comp h1
  unfold shell
  refine h2.div (measurable_const.mul (Finset.measurable_fun_prod _ fun b _ => ?_))
  simp only [msq_sum3, r2]
  fun_prop

theorem measurable_planar (om p : ℝ) (m : A → ℝ) (k : B → ℝ) (f : MvPolynomial (Fin 4) ℂ) (a : A) (beta : ℝ) :
    Measurable (planar om p m k f a beta) := by
  have hE : Measurable fun u : ℝ × ℝ => ((en3 (m a) (u.1, u.2, 0) : ℝ) : ℂ) := by
    simp only [en3, r2]; fun_prop
  have h1 := measurable_shell om p m k f a (hE.const_mul I)
  have h2 := measurable_shell om p m k f a (hE.const_mul I).neg
  unfold planar Spec.bose
  refine Measurable.mul ?_ (h1.add h2)
  fun_prop

theorem en3_axis (M : ℝ) (v : ℝ × ℝ × ℝ) : en3 M (v.1, √(v.2.1 ^ 2 + v.2.2 ^ 2), 0) = en3 M v := by
  simp only [en3, r2]
  congr 1
  rw [Real.sq_sqrt (by positivity)]; ring

theorem IsDiagram.shell_axis (h : IsDiagram om p m k f F) (a : A) (w : ℂ) (v : ℝ × ℝ × ℝ) :
    shell om p m k f a w (v.1, √(v.2.1 ^ 2 + v.2.2 ^ 2), 0) = shell om p m k f a w v := by
  rw [shell, shell, ← h.axis]
  congr 2
  refine Finset.prod_congr rfl fun b _ => ?_
  rw [msq_sum3, msq_sum3]
  simp only [r2, Real.sq_sqrt (show 0 ≤ v.2.1 ^ 2 + v.2.2 ^ 2 by positivity)]
  push_cast; ring

theorem IsDiagram.onShell_eq (h : IsDiagram om p m k f F) (hm : Function.Injective fun a => m a ^ 2) (ho : om ≠ 0) (a : A) (beta : ℝ) :
    onShell F beta (m a) = Spherical.around (planar om p m k f a beta) := by
  funext v
  simp only [onShell, Spherical.around, planar, en3_axis, h.shell_axis]
  rcases (en3_nonneg (m a) v).lt_or_eq with hE | hE
  · rw [h.atPole hm ho a hE (.inl rfl), h.atPole hm ho a hE (.inr rfl)]
  · rw [← hE]; simp [Spec.bose]

theorem IsDiagram.integrable_onShell (h : IsDiagram om p m k f F) (hm : Function.Injective fun a => m a ^ 2) (ho : om ≠ 0) (a : A) {beta : ℝ}
    (hb : 0 < beta) : Integrable (onShell F beta (m a)) := by
  obtain ⟨C, n, hC, hs⟩ := shell_bound (p := p) ho m k f a
  refine Spherical.integrable_of_radial (B := fun y => C / beta * (1 + y) ^ n * Real.exp (-(2 * beta / 4 * y)) / y ^ 2) ?_ ?_ ?_
  · rw [h.onShell_eq hm ho]
    exact (Spherical.measurable_around (measurable_planar om p m k f a beta)).aestronglyMeasurable
  · refine (integrableOn_congr_fun (fun y hy => ?_) measurableSet_Ioi).1 (Dom.bound_integrable (b0 := 2 * beta) (by positivity) (C / beta) n)
    have : y ≠ 0 := (show 0 < y from hy).ne'
    field_simp
  · intro v hv
    have hE := en3_pos (m a) hv
    have hy := norm_pos_iff.2 hv
    have hle := norm_le_en3 (m a) v
    rw [onShell, h.atPole hm ho a hE (.inl rfl), h.atPole hm ho a hE (.inr rfl), norm_mul, norm_div]
    have h1 : ‖shell om p m k f a (I * en3 (m a) v) v + shell om p m k f a (-(I * en3 (m a) v)) v‖ ≤ 2 * (C * (1 + ‖v‖) ^ n) :=
      (norm_add_le _ _).trans (by linarith [hs v _ (.inl rfl), hs v _ (.inr rfl)])
    have h2 : ‖(2 * en3 (m a) v : ℂ)‖ = 2 * en3 (m a) v := by simp [abs_of_pos hE]
    have h3 : ‖Spec.bose beta (en3 (m a) v)‖ ≤ Real.exp (-(2 * beta / 4 * ‖v‖)) / (‖v‖ * beta) := by
      refine (bose_norm_le hb hE).trans ?_
      gcongr
      nlinarith
    rw [h2]
    calc _ ≤ Real.exp (-(2 * beta / 4 * ‖v‖)) / (‖v‖ * beta) / (2 * ‖v‖) * (2 * (C * (1 + ‖v‖) ^ n)) := by gcongr
      _ = _ := by field_simp

theorem en3_eq_en {q : ℝ} (M : ℝ) {c : ℝ} (hc : c ∈ Set.Icc (-1 : ℝ) 1) : Spec.en q (M : ℂ) = ((en3 M (q * c, q * √(1 - c ^ 2), 0) : ℝ) : ℂ) := by
  rw [en_real]
  congr 1
  have h : 0 ≤ 1 - c ^ 2 := by nlinarith [hc.1, hc.2]
  rw [show energy q M = Real.sqrt (M * M + q * q) by simp [energy, energy_squared], en3, r2]
  congr 1
  simp only [mul_pow, Real.sq_sqrt h]
  ring

theorem loopMomentum_eq (q0 : ℂ) (q c : ℝ) : Spec.loopMomentum q0 q c = fourMomentum q0 (q * c, q * √(1 - c ^ 2), 0) := by
  ext i; fin_cases i <;> simp [Spec.loopMomentum, fourMomentum]

theorem IsDiagram.line_eq (h : IsDiagram om p m k f F) (hm : Function.Injective fun a => m a ^ 2) (ho : om ≠ 0) (a : A) (beta : ℝ) {q : ℝ}
    (hq : 0 < q) : Spec.line F q (m a) beta =
      1 / (4 * π ^ 2) * ((q : ℂ) ^ 2 * ∫ c in (-1 : ℝ)..1, planar om p m k f a beta (q * c, q * √(1 - c ^ 2))) := by
  have key : ∀ c ∈ Set.uIcc (-1 : ℝ) 1, planar om p m k f a beta (q * c, q * √(1 - c ^ 2)) = Spec.bose beta (Spec.en q (m a)) / (2 * Spec.en q (m a)) *
      (Spec.atPole (fun q0 => F (Spec.loopMomentum q0 q c)) (Spec.en q (m a)) (I * Spec.en q (m a))
        + Spec.atPole (fun q0 => F (Spec.loopMomentum q0 q c)) (Spec.en q (m a)) (-(I * Spec.en q (m a)))) := by
    intro c hc
    rw [Set.uIcc_of_le (by norm_num)] at hc
    have hE : 0 < en3 (m a) (q * c, q * √(1 - c ^ 2), 0) := by
      have h1 := en3_eq_en (q := q) (m a) hc
      rw [en_real] at h1
      have h2 : energy q (m a) = en3 (m a) (q * c, q * √(1 - c ^ 2), 0) := by exact_mod_cast h1
      rw [← h2]; exact energy_real_pos hq
    rw [en3_eq_en (m a) hc]
    simp only [loopMomentum_eq, planar]
    rw [h.atPole hm ho a hE (.inl rfl), h.atPole hm ho a hE (.inr rfl)]
  rw [intervalIntegral.integral_congr key, intervalIntegral.integral_const_mul, Spec.line]
  ring

theorem IsDiagram.line_integral (h : IsDiagram om p m k f F) (hm : Function.Injective fun a => m a ^ 2) (ho : om ≠ 0) (a : A) {beta : ℝ}
    (hb : 0 < beta) : IntegrableOn (fun q => Spec.line F q (m a) beta) (Ioi 0) ∧
      1 / (2 * π) ^ 3 * ∫ v, onShell F beta (m a) v = ∫ q in Ioi (0 : ℝ), Spec.line F q (m a) beta := by
  have hi := h.integrable_onShell hm ho a hb
  rw [h.onShell_eq hm ho] at hi ⊢
  have hp := measurable_planar om p m k f a beta
  refine ⟨?_, ?_⟩
  · refine (integrableOn_congr_fun (fun q hq => ?_) measurableSet_Ioi).1 ((Spherical.integrableOn_radial hp hi).const_mul (1 / (4 * π ^ 2)))
    exact (h.line_eq hm ho a beta hq).symm
  · rw [Spherical.integral_around hp hi, setIntegral_congr_fun measurableSet_Ioi fun q hq => h.line_eq hm ho a beta hq, integral_const_mul]
    have : (π : ℂ) ≠ 0 := by exact_mod_cast Real.pi_ne_zero
    generalize (∫ q in Ioi (0 : ℝ), (q : ℂ) ^ 2 * ∫ c in (-1 : ℝ)..1, planar om p m k f a beta (q * c, q * √(1 - c ^ 2))) = x
    field_simp
    ring

/-! ### The whole diagram -/

/-- The numerator as a polynomial in the energy. -/
noncomputable def inEnergy (f : MvPolynomial (Fin 4) ℂ) (v : ℝ × ℝ × ℝ) : Polynomial ℂ :=
  MvPolynomial.aeval ![Polynomial.X, Polynomial.C (v.1 : ℂ), Polynomial.C (v.2.1 : ℂ), Polynomial.C (v.2.2 : ℂ)] f

theorem eval_inEnergy (f : MvPolynomial (Fin 4) ℂ) (v : ℝ × ℝ × ℝ) (q0 : ℂ) :
    (inEnergy f v).eval q0 = MvPolynomial.eval (fourMomentum q0 v) f := by
  unfold inEnergy
  induction f using MvPolynomial.induction_on with
  | C c => simp
  | add f g hf hg => simp only [map_add, Polynomial.eval_add, hf, hg]
  | mul_X f i hf =>
    simp only [map_mul, Polynomial.eval_mul, hf, MvPolynomial.aeval_X, MvPolynomial.eval_X]
    congr 1
    fin_cases i <;> simp [fourMomentum]

theorem natDegree_inEnergy (f : MvPolynomial (Fin 4) ℂ) (v : ℝ × ℝ × ℝ) : (inEnergy f v).natDegree ≤ f.totalDegree := by
  have := MvPolynomial.aeval_natDegree_le f le_rfl ![Polynomial.X, Polynomial.C (v.1 : ℂ), Polynomial.C (v.2.1 : ℂ), Polynomial.C (v.2.2 : ℂ)] (n := 1) (by
    intro i; fin_cases i <;> simp)
  simpa [inEnergy] using this

/-- Spatial momentum of the other line. -/
def other (p : ℝ) (v : ℝ × ℝ × ℝ) : ℝ × ℝ × ℝ := (p + v.1, v.2.1, v.2.2)

theorem IsDiagram.isLoop (h : IsDiagram om p m k f F) (v : ℝ × ℝ × ℝ) :
    IsLoop om (fun a => en3 (m a) v) (fun b => en3 (k b) (other p v)) (inEnergy f v) fun q0 => F (fourMomentum q0 v) := by
  intro w h1 h2
  have e1 : ∀ a, w ^ 2 + (en3 (m a) v : ℂ) ^ 2 = msq (fourMomentum w v) + (m a : ℂ) ^ 2 := fun a => by
    rw [msq_fourMomentum, ← Complex.ofReal_pow, en3_sq]; push_cast; ring
  have e2 : ∀ b, (w + om) ^ 2 + (en3 (k b) (other p v) : ℂ) ^ 2 = msq (external om p + fourMomentum w v) + (k b : ℂ) ^ 2 := fun b => by
    rw [msq_sum3, ← Complex.ofReal_pow (en3 _ _), en3_sq, other]; push_cast; ring
  simp only [e1, e2] at *
  rw [h.eq _ h1 h2, eval_inEnergy]

theorem en3_injective (hm : Function.Injective fun a => m a ^ 2) (v : ℝ × ℝ × ℝ) : Function.Injective fun a => en3 (m a) v := by
  intro a a' h
  apply hm
  have h1 := en3_sq (m a) v
  have h2 := en3_sq (m a') v
  have h0 : en3 (m a) v = en3 (m a') v := h
  rw [h0, h2] at h1
  simp only
  linarith

theorem onShell_swapped (beta M : ℝ) (v : ℝ × ℝ × ℝ) : onShell (swapped om p F) beta M ((-p, 0, 0) - v) =
    Spec.bose beta (en3 M (other p v)) / (2 * en3 M (other p v)) *
      (Spec.atPole (fun w => F (fourMomentum (-(om + w)) v)) (en3 M (other p v)) (I * en3 M (other p v))
        + Spec.atPole (fun w => F (fourMomentum (-(om + w)) v)) (en3 M (other p v)) (-(I * en3 M (other p v)))) := by
  have e : en3 M ((-p, 0, 0) - v) = en3 M (other p v) := by
    simp only [en3, r2, other, Prod.fst_sub, Prod.snd_sub]; congr 1; ring
  have e2 : ∀ q0, swapped om p F (fourMomentum q0 ((-p, 0, 0) - v)) = F (fourMomentum (-(om + q0)) v) := fun q0 => by
    rw [swapped_fourMomentum]
    congr 2
    ext <;> simp
  simp only [onShell, e, e2]

theorem IsDiagram.pointwise (h : IsDiagram om p m k f F) (hm : Function.Injective fun a => m a ^ 2) (hk : Function.Injective fun b => k b ^ 2)
    (ho : om ≠ 0) (hd : f.totalDegree + 2 ≤ 2 * (Fintype.card A + Fintype.card B)) {beta : ℝ} (hb : 0 < beta) {l : ℤ}
    (hl : beta * om = 2 * π * l) {v : ℝ × ℝ × ℝ} (hv : v ≠ 0) (hv' : other p v ≠ 0) :
    (Summable fun n : ℤ => F (fourMomentum (2 * π * n / beta) v)) ∧ (Integrable fun w : ℝ => F (fourMomentum w v)) ∧
    Spec.sumMinusIntegral (fun q0 => F (fourMomentum q0 v)) beta =
      ∑ a, onShell F beta (m a) v + ∑ b, onShell (swapped om p F) beta (k b) ((-p, 0, 0) - v) := by
  have hdeg := natDegree_inEnergy f v
  have key := (h.isLoop v).bose (fun a => en3_pos (m a) hv) (fun b => en3_pos (k b) hv') (en3_injective hm v) (en3_injective hk _) ho
    (by omega) hb hl
  refine ⟨key.1, key.2.1, ?_⟩
  rw [Spec.sumMinusIntegral, key.2.2]
  simp only [onShell_swapped]
  rfl

theorem ae_ne (x : ℝ × ℝ × ℝ) : ∀ᵐ v : ℝ × ℝ × ℝ, v ≠ x := by
  rw [ae_iff]; simp

/-- **The thermal part of a diagram**: sum over the lines. -/
theorem IsDiagram.thermal (h : IsDiagram om p m k f F) (hm : Function.Injective fun a => m a ^ 2) (hk : Function.Injective fun b => k b ^ 2)
    (ho : om ≠ 0) (hd : f.totalDegree + 2 ≤ 2 * (Fintype.card A + Fintype.card B)) {beta : ℝ} (hb : 0 < beta) {l : ℤ}
    (hl : beta * om = 2 * π * l) :
    Spec.IsThermalDiagram F beta (∫ q in Ioi (0 : ℝ), (∑ a, Spec.line F q (m a) beta + ∑ b, Spec.line (swapped om p F) q (k b) beta)) ∧
    IntegrableOn (fun q => ∑ a, Spec.line F q (m a) beta + ∑ b, Spec.line (swapped om p F) q (k b) beta) (Ioi 0) := by
  have hae : ∀ᵐ v : ℝ × ℝ × ℝ, v ≠ 0 ∧ other p v ≠ 0 := by
    filter_upwards [ae_ne 0, ae_ne (-p, 0, 0)] with v h1 h2
    refine ⟨h1, fun h0 => h2 ?_⟩
    simp only [other, Prod.mk_eq_zero] at h0
    ext
    · simp; linarith [h0.1]
    · exact h0.2.1
    · exact h0.2.2
  have i1 : ∀ a, Integrable (onShell F beta (m a)) := fun a => h.integrable_onShell hm ho a hb
  have i2 : ∀ b, Integrable (onShell (swapped om p F) beta (k b)) := fun b => h.swap.integrable_onShell hk ho b hb
  have i3 : ∀ b, Integrable fun v => onShell (swapped om p F) beta (k b) ((-p, 0, 0) - v) := fun b => (i2 b).comp_sub_left _
  have heq : (fun v => Spec.sumMinusIntegral (fun q0 => F (fourMomentum q0 v)) beta) =ᵐ[volume]
      fun v => ∑ a, onShell F beta (m a) v + ∑ b, onShell (swapped om p F) beta (k b) ((-p, 0, 0) - v) := by
    filter_upwards [hae] with v hv using (h.pointwise hm hk ho hd hb hl hv.1 hv.2).2.2
  have i4 : Integrable fun v => ∑ a, onShell F beta (m a) v := integrable_finset_sum _ fun a _ => i1 a
  have i5 : Integrable fun v => ∑ b, onShell (swapped om p F) beta (k b) ((-p, 0, 0) - v) := integrable_finset_sum _ fun b _ => i3 b
  have l1 := fun a => h.line_integral hm ho a hb
  have l2 := fun b => h.swap.line_integral hk ho b hb
  have j1 : IntegrableOn (fun q => ∑ a, Spec.line F q (m a) beta) (Ioi 0) := integrable_finset_sum _ fun a _ => (l1 a).1
  have j2 : IntegrableOn (fun q => ∑ b, Spec.line (swapped om p F) q (k b) beta) (Ioi 0) := integrable_finset_sum _ fun b _ => (l2 b).1
  refine ⟨⟨?_, (i4.add i5).congr heq.symm, ?_⟩, j1.add j2⟩
  · filter_upwards [hae] with v hv
    have := h.pointwise hm hk ho hd hb hl hv.1 hv.2
    exact ⟨this.1, this.2.1⟩
  · rw [integral_congr_ae heq, integral_add i4 i5, integral_finset_sum _ fun a _ => i1 a, integral_finset_sum _ fun b _ => i3 b,
      integral_add j1 j2, integral_finset_sum _ fun a _ => (l1 a).1, integral_finset_sum _ fun b _ => (l2 b).1, mul_add, Finset.mul_sum, Finset.mul_sum]
    congr 1
    · exact Finset.sum_congr rfl fun a _ => (l1 a).2.symm
    · refine Finset.sum_congr rfl fun b _ => ?_
      rw [← (l2 b).2, integral_sub_left_eq_self (fun v => onShell (swapped om p F) beta (k b) v) volume (-p, 0, 0)]

end diagram

end Qcd.Matsubara
