import Verif.Lemmas.Matsubara
import Verif.Spec.Diagrams

/-! # Frequency sums of products of propagators

Partial fractions, and the weight of each pole. -/

namespace Qcd.Matsubara
open Filter Topology Complex MeasureTheory Polynomial
open scoped Real

/-! ### Partial fractions -/

section fractions
variable {ι : Type} [Fintype ι] [DecidableEq ι] {z : ι → ℂ}

/-- Residue at `z j` of `N(w) / ∏ (w - z i)`. -/
noncomputable def res (N : ℂ[X]) (z : ι → ℂ) (j : ι) : ℂ := N.eval (z j) / ∏ i ∈ Finset.univ.erase j, (z j - z i)

theorem sum_res (hz : Function.Injective z) {N : ℂ[X]} (hN : N.natDegree + 2 ≤ Fintype.card ι) : ∑ j, res N z j = 0 := by
  have h := Lagrange.coeff_eq_sum (s := Finset.univ) (v := z) hz.injOn (P := N) (by
    refine lt_of_le_of_lt degree_le_natDegree ?_
    rw [Finset.card_univ]
    exact_mod_cast by omega)
  simp only [res]
  rw [← h, Finset.card_univ]
  exact coeff_eq_zero_of_natDegree_lt (by omega)

theorem eval_div_prod (hz : Function.Injective z) {N : ℂ[X]} (hN : N.natDegree + 2 ≤ Fintype.card ι) {w : ℂ} (hw : ∀ i, w ≠ z i) :
    N.eval w / ∏ i, (w - z i) = ∑ j, res N z j / (w - z j) := by
  have h := Lagrange.eval_interpolate_not_at_node (s := Finset.univ) (v := z) (fun i => N.eval (z i)) (x := w) fun i _ => hw i
  rw [← Lagrange.eq_interpolate hz.injOn (by
    refine lt_of_le_of_lt degree_le_natDegree ?_
    rw [Finset.card_univ]
    exact_mod_cast by omega)] at h
  have hp : ∏ i, (w - z i) ≠ 0 := Finset.prod_ne_zero_iff.2 fun i _ => sub_ne_zero.2 (hw i)
  rw [h, Lagrange.eval_nodal, mul_div_cancel_left₀ _ hp]
  refine Finset.sum_congr rfl fun j _ => ?_
  simp only [Lagrange.nodalWeight, res, Finset.prod_inv_distrib]
  ring

/-- Near a pole. -/
theorem tendsto_res (c : ι → ℂ) (hz : Function.Injective z) (j : ι) :
    Tendsto (fun w => (w - z j) * ∑ i, c i / (w - z i)) (𝓝[≠] z j) (𝓝 (c j)) := by
  have h1 : Tendsto (fun w => c j + (w - z j) * ∑ i ∈ Finset.univ.erase j, c i / (w - z i)) (𝓝[≠] z j) (𝓝 (c j)) := by
    refine tendsto_nhdsWithin_of_tendsto_nhds ?_
    have hc : ContinuousAt (fun w => c j + (w - z j) * ∑ i ∈ Finset.univ.erase j, c i / (w - z i)) (z j) := by
      refine continuousAt_const.add ((continuousAt_id.sub continuousAt_const).mul ?_)
      refine tendsto_finset_sum _ fun i hi => ?_
      exact continuousAt_const.div (continuousAt_id.sub continuousAt_const) (sub_ne_zero.2 fun h => Finset.ne_of_mem_erase hi (hz h.symm))
    simpa [ContinuousAt] using hc
  refine h1.congr' ?_
  filter_upwards [self_mem_nhdsWithin] with w hw
  rw [← Finset.add_sum_erase _ _ (Finset.mem_univ j), mul_add, mul_div_cancel₀ _ (sub_ne_zero.2 hw)]

end fractions

/-! ### Weights -/

theorem weight_up {beta E r : ℝ} {l : ℤ} (hb : 0 < beta) (hE : 0 < E) (hr : beta * r = 2 * π * l) :
    weight beta 0 (r + E * I) = I * Spec.bose beta E := by
  have hu : Complex.exp (beta * E) - 1 ≠ 0 := by
    have : 1 < Real.exp (beta * E) := Real.one_lt_exp_iff.2 (by positivity)
    rw [sub_ne_zero]
    exact_mod_cast this.ne'
  have h0 : Complex.exp (2 * I * (beta * (r + E * I) / 2)) = (Complex.exp (beta * E))⁻¹ := by
    rw [← Complex.exp_neg]
    have : 2 * I * (beta * (r + E * I) / 2) = -(beta * E) + l * (2 * π * I) := by
      have hr' : (beta : ℂ) * r = 2 * π * l := by exact_mod_cast hr
      linear_combination I * hr' + beta * E * I_sq
    rw [this, Complex.exp_add, Complex.exp_int_mul_two_pi_mul_I, mul_one]
  have hx := Complex.exp_ne_zero (beta * E)
  rw [weight, if_pos (by simpa using hE), sub_zero, Complex.cot_eq_exp_ratio, h0, Spec.bose]
  generalize Complex.exp (beta * E) = u at *
  have : (1 - u⁻¹) = (u - 1) / u := by field_simp
  rw [this]
  have h2 : u⁻¹ + 1 = (1 + u) / u := by field_simp
  rw [h2]
  field_simp
  linear_combination (-(1 : ℂ)-u) * I_sq + 0

theorem weight_down {beta E r : ℝ} {l : ℤ} (hb : 0 < beta) (hE : 0 < E) (hr : beta * r = 2 * π * l) :
    weight beta 0 (r - E * I) = -(I * Spec.bose beta E) := by
  have h := weight_up hb hE (r := -r) (l := -l) (by push_cast; linarith)
  rw [weight, if_pos (by simpa using hE)] at h
  rw [weight, if_neg (by simp; exact hE.le)]
  have e : beta * ((r : ℂ) - E * I - 0) / 2 = -(beta * ((-r : ℝ) + E * I - 0) / 2) := by push_cast; ring
  rw [e, Complex.cot, Complex.cos_neg, Complex.sin_neg, div_neg, ← Complex.cot]
  linear_combination -h

/-! ### Products of propagators -/

section loop
variable {A B : Type} [Fintype A] [Fintype B] [DecidableEq A] [DecidableEq B] {E : A → ℝ} {K : B → ℝ} {om : ℝ}

/-- Position of the poles: `± i E` and `-ω ± i K`. -/
noncomputable def pole (om : ℝ) (E : A → ℝ) (K : B → ℝ) (i : (A ⊕ B) × Bool) : ℂ :=
  ((Sum.elim (fun _ => 0) (fun _ => -om) i.1 : ℝ) : ℂ) + (if i.2 then 1 else -1) * (Sum.elim E K i.1 : ℝ) * I

theorem pole_re (i : (A ⊕ B) × Bool) : (pole om E K i).re = Sum.elim (fun _ => 0) (fun _ => -om) i.1 := by
  rcases i with ⟨i, s⟩; cases s <;> simp [pole]

theorem pole_im (i : (A ⊕ B) × Bool) : (pole om E K i).im = (if i.2 then 1 else -1) * Sum.elim E K i.1 := by
  rcases i with ⟨i, s⟩; cases s <;> simp [pole]

theorem pole_injective (hE : ∀ a, 0 < E a) (hK : ∀ b, 0 < K b) (iE : Function.Injective E) (iK : Function.Injective K) (ho : om ≠ 0) :
    Function.Injective (pole om E K) := by
  rintro ⟨i, s⟩ ⟨j, t⟩ h
  have hr := congrArg Complex.re h
  have hi := congrArg Complex.im h
  rw [pole_re, pole_re] at hr
  rw [pole_im, pole_im] at hi
  rcases i with a | b <;> rcases j with a' | b' <;> simp only [Sum.elim_inl, Sum.elim_inr] at hr hi
  · have h1 := hE a; have h2 := hE a'
    cases s <;> cases t <;> simp at hi
    · rw [iE hi]
    · linarith
    · linarith
    · rw [iE hi]
  · exact absurd hr.symm (neg_ne_zero.2 ho)
  · exact absurd hr (neg_ne_zero.2 ho)
  · have h1 := hK b; have h2 := hK b'
    cases s <;> cases t <;> simp at hi
    · rw [iK hi]
    · linarith
    · linarith
    · rw [iK hi]

theorem prod_pole (w : ℂ) : ∏ i, (w - pole om E K i) = (∏ a, (w ^ 2 + (E a : ℂ) ^ 2)) * ∏ b, ((w + om) ^ 2 + (K b : ℂ) ^ 2) := by
  rw [Fintype.prod_prod_type, Fintype.prod_sum_type]
  congr 1 <;> refine Finset.prod_congr rfl fun a _ => ?_ <;> rw [Fintype.prod_bool]
  · simp [pole]; linear_combination -(E a : ℂ) ^ 2 * I_sq
  · simp [pole]; linear_combination -(K a : ℂ) ^ 2 * I_sq

/-- `F` is `N(w)` divided by the propagators, wherever these do not vanish. -/
def IsLoop (om : ℝ) (E : A → ℝ) (K : B → ℝ) (N : ℂ[X]) (F : ℂ → ℂ) : Prop :=
  ∀ w, (∀ a, w ^ 2 + (E a : ℂ) ^ 2 ≠ 0) → (∀ b, (w + om) ^ 2 + (K b : ℂ) ^ 2 ≠ 0) →
    F w = N.eval w / ((∏ a, (w ^ 2 + (E a : ℂ) ^ 2)) * ∏ b, ((w + om) ^ 2 + (K b : ℂ) ^ 2))

variable {N : ℂ[X]} {F : ℂ → ℂ}

theorem IsLoop.fractions (h : IsLoop om E K N F) (hE : ∀ a, 0 < E a) (hK : ∀ b, 0 < K b) (iE : Function.Injective E)
    (iK : Function.Injective K) (ho : om ≠ 0) (hN : N.natDegree + 2 ≤ 2 * (Fintype.card A + Fintype.card B)) {w : ℂ}
    (hw : ∀ i, w ≠ pole om E K i) : F w = ∑ j, res N (pole om E K) j / (w - pole om E K j) := by
  have hp : ∏ i, (w - pole om E K i) ≠ 0 := Finset.prod_ne_zero_iff.2 fun i _ => sub_ne_zero.2 (hw i)
  rw [← eval_div_prod (pole_injective hE hK iE iK ho) (by simpa [mul_comm] using hN) hw, prod_pole]
  rw [prod_pole] at hp
  have h1 := Finset.prod_ne_zero_iff.1 (left_ne_zero_of_mul hp)
  have h2 := Finset.prod_ne_zero_iff.1 (right_ne_zero_of_mul hp)
  exact h w (fun a => h1 a (Finset.mem_univ a)) (fun b => h2 b (Finset.mem_univ b))

theorem ne_pole_of_im {w : ℂ} (hw : ∀ i, (pole om E K i).im ≠ w.im) (i : (A ⊕ B) × Bool) : w ≠ pole om E K i :=
  fun h => hw i (congrArg Complex.im h.symm)

theorem pole_im_ne (hE : ∀ a, 0 < E a) (hK : ∀ b, 0 < K b) (i : (A ⊕ B) × Bool) : (pole om E K i).im ≠ 0 := by
  rw [pole_im]
  rcases i with ⟨i | i, s⟩
  · cases s <;> simp [(hE i).ne']
  · cases s <;> simp [(hK i).ne']

theorem eventually_ne_poles {z : ℂ} (i : (A ⊕ B) × Bool) (hz : z = pole om E K i) (hi : Function.Injective (pole om E K)) :
    ∀ᶠ w in 𝓝[≠] z, ∀ j, w ≠ pole om E K j := by
  rw [Filter.eventually_all]
  intro j
  by_cases h : j = i
  · subst h; rw [← hz]; exact self_mem_nhdsWithin
  · have : z ≠ pole om E K j := fun h' => h (hi (h'.symm.trans hz))
    exact nhdsWithin_le_nhds (isOpen_ne.mem_nhds this)

theorem IsLoop.tendsto_res (h : IsLoop om E K N F) (hE : ∀ a, 0 < E a) (hK : ∀ b, 0 < K b) (iE : Function.Injective E)
    (iK : Function.Injective K) (ho : om ≠ 0) (hN : N.natDegree + 2 ≤ 2 * (Fintype.card A + Fintype.card B)) (j : (A ⊕ B) × Bool) :
    Tendsto (fun w => (w - pole om E K j) * F w) (𝓝[≠] pole om E K j) (𝓝 (res N (pole om E K) j)) := by
  have hi := pole_injective hE hK iE iK ho
  refine (Matsubara.tendsto_res (res N (pole om E K)) hi j).congr' ?_
  filter_upwards [eventually_ne_poles j rfl hi] with w hw
  rw [h.fractions hE hK iE iK ho hN hw]

theorem IsLoop.atPole_left (h : IsLoop om E K N F) (hE : ∀ a, 0 < E a) (hK : ∀ b, 0 < K b) (iE : Function.Injective E)
    (iK : Function.Injective K) (ho : om ≠ 0) (hN : N.natDegree + 2 ≤ 2 * (Fintype.card A + Fintype.card B)) (a : A) :
    Spec.atPole F (E a) (I * E a) = 2 * I * E a * res N (pole om E K) (.inl a, true) ∧
    Spec.atPole F (E a) (-(I * E a)) = -(2 * I * E a) * res N (pole om E K) (.inl a, false) := by
  have key : ∀ s : Bool, ∀ z : ℂ, z = pole om E K (.inl a, s) → z ^ 2 = -(E a : ℂ) ^ 2 →
      Spec.atPole F (E a) z = 2 * z * res N (pole om E K) (.inl a, s) := by
    intro s z hz hz2
    refine Tendsto.limUnder_eq ?_
    have h1 := h.tendsto_res hE hK iE iK ho hN (.inl a, s)
    rw [← hz] at h1
    have h2 : Tendsto (fun w : ℂ => w + z) (𝓝[≠] z) (𝓝 (2 * z)) := by
      refine tendsto_nhdsWithin_of_tendsto_nhds ?_
      have : ContinuousAt (fun w : ℂ => w + z) z := by fun_prop
      rw [two_mul]; exact this
    refine (h2.mul h1).congr fun w => ?_
    linear_combination -F w * hz2
  refine ⟨?_, ?_⟩
  · rw [key true (I * E a) (by simp [pole, mul_comm]) (by rw [mul_pow, I_sq]; ring)]; ring
  · rw [key false (-(I * E a)) (by simp [pole, mul_comm]) (by rw [neg_sq, mul_pow, I_sq]; ring)]; ring

theorem IsLoop.atPole_right (h : IsLoop om E K N F) (hE : ∀ a, 0 < E a) (hK : ∀ b, 0 < K b) (iE : Function.Injective E)
    (iK : Function.Injective K) (ho : om ≠ 0) (hN : N.natDegree + 2 ≤ 2 * (Fintype.card A + Fintype.card B)) (b : B) :
    Spec.atPole (fun w => F (-(om + w))) (K b) (I * K b) = -(2 * I * K b) * res N (pole om E K) (.inr b, false) ∧
    Spec.atPole (fun w => F (-(om + w))) (K b) (-(I * K b)) = 2 * I * K b * res N (pole om E K) (.inr b, true) := by
  have key : ∀ s : Bool, ∀ z : ℂ, -(om + z) = pole om E K (.inr b, s) → z ^ 2 = -(K b : ℂ) ^ 2 →
      Spec.atPole (fun w => F (-(om + w))) (K b) z = -(2 * z) * res N (pole om E K) (.inr b, s) := by
    intro s z hz hz2
    refine Tendsto.limUnder_eq ?_
    have h1 := h.tendsto_res hE hK iE iK ho hN (.inr b, s)
    rw [← hz] at h1
    have h0 : Tendsto (fun w : ℂ => -(om + w)) (𝓝[≠] z) (𝓝[≠] (-(om + z))) := by
      refine tendsto_nhdsWithin_of_tendsto_nhds_of_eventually_within _ (tendsto_nhdsWithin_of_tendsto_nhds ?_) ?_
      · exact (by fun_prop : ContinuousAt (fun w : ℂ => -(om + w)) z)
      · filter_upwards [self_mem_nhdsWithin] with w hw
        intro h'
        have h2 : -((om : ℂ) + w) = -(om + z) := h'
        exact hw (by linear_combination -h2 : w = z)
    have h2 : Tendsto (fun w : ℂ => -(w + z)) (𝓝[≠] z) (𝓝 (-(2 * z))) := by
      refine tendsto_nhdsWithin_of_tendsto_nhds ?_
      have : ContinuousAt (fun w : ℂ => -(w + z)) z := by fun_prop
      rw [two_mul]; exact this
    refine (h2.mul (h1.comp h0)).congr fun w => ?_
    simp only [Function.comp_apply]
    linear_combination -F (-(om + w)) * hz2
  refine ⟨?_, ?_⟩
  · rw [key false (I * K b) (by simp [pole]; ring) (by rw [mul_pow, I_sq]; ring)]; ring
  · rw [key true (-(I * K b)) (by simp [pole]; ring) (by rw [neg_sq, mul_pow, I_sq]; ring)]; ring

/-- Sum minus integral, with a general shift of the frequencies. -/
theorem IsLoop.sum_sub_integral (h : IsLoop om E K N F) (hE : ∀ a, 0 < E a) (hK : ∀ b, 0 < K b) (iE : Function.Injective E)
    (iK : Function.Injective K) (ho : om ≠ 0) (hN : N.natDegree + 2 ≤ 2 * (Fintype.card A + Fintype.card B))
    {beta : ℝ} (hb : 0 < beta) {c : ℂ} (hc : ∀ i, (pole om E K i).im ≠ c.im) :
    (Summable fun n : ℤ => F (2 * π * n / beta + c)) ∧ (Integrable fun w : ℝ => F w) ∧
    1 / beta * ∑' n : ℤ, F (2 * π * n / beta + c) - 1 / (2 * π) * ∫ w : ℝ, F w =
      ∑ a, (Spec.atPole F (E a) (I * E a) / (2 * I * E a) * weight beta c (I * E a)
        - Spec.atPole F (E a) (-(I * E a)) / (2 * I * E a) * weight beta c (-(I * E a)))
      + ∑ b, (Spec.atPole (fun w => F (-(om + w))) (K b) (-(I * K b)) / (2 * I * K b) * weight beta c (-om + I * K b)
        - Spec.atPole (fun w => F (-(om + w))) (K b) (I * K b) / (2 * I * K b) * weight beta c (-om - I * K b)) := by
  have hi := pole_injective hE hK iE iK ho
  have hr : ∀ w : ℝ, F w = ∑ j, res N (pole om E K) j / (w - pole om E K j) := fun w =>
    h.fractions hE hK iE iK ho hN (ne_pole_of_im (w := w) (by simpa using pole_im_ne hE hK))
  have hl : ∀ n : ℤ, F (2 * π * n / beta + c) = ∑ j, res N (pole om E K) j / (2 * π * n / beta + c - pole om E K j) := fun n =>
    h.fractions hE hK iE iK ho hN (ne_pole_of_im (w := 2 * π * n / beta + c) (by
      have : (2 * π * n / beta + c : ℂ).im = c.im := by
        rw [show (2 * π * n / beta + c : ℂ) = ((2 * π * n / beta : ℝ) : ℂ) + c by push_cast; rfl]; simp
      rw [this]; exact hc))
  have hs : ∑ j, res N (pole om E K) j = 0 := sum_res hi (by simpa [mul_comm] using hN)
  have key := Matsubara.sum_sub_integral (s := Finset.univ) hb (a := c) (fun j _ => pole_im_ne hE hK j) (fun j _ => hc j) hs
  simp only [hl, hr]
  refine ⟨key.1, integrable_sum_poles (fun j _ => pole_im_ne hE hK j) hs, key.2.trans ?_⟩
  rw [Fintype.sum_prod_type, Fintype.sum_sum_type]
  congr 1 <;> refine Finset.sum_congr rfl fun a _ => ?_ <;> rw [Fintype.sum_bool]
  · have h1 := h.atPole_left hE hK iE iK ho hN a
    have h0 : (E a : ℂ) ≠ 0 := by exact_mod_cast (hE a).ne'
    have e1 : pole om E K (.inl a, true) = I * E a := by simp [pole, mul_comm]
    have e2 : pole om E K (.inl a, false) = -(I * E a) := by simp [pole, mul_comm]
    rw [h1.1, h1.2, e1, e2]
    generalize res N (pole om E K) (.inl a, true) = r1
    generalize res N (pole om E K) (.inl a, false) = r2
    have := I_ne_zero
    field_simp
    ring
  · have h1 := h.atPole_right hE hK iE iK ho hN a
    have h0 : (K a : ℂ) ≠ 0 := by exact_mod_cast (hK a).ne'
    have e1 : pole om E K (.inr a, true) = -om + I * K a := by simp [pole, mul_comm]
    have e2 : pole om E K (.inr a, false) = -om - I * K a := by simp [pole, mul_comm]; ring
    rw [h1.1, h1.2, e1, e2]
    generalize res N (pole om E K) (.inr a, true) = r1
    generalize res N (pole om E K) (.inr a, false) = r2
    have := I_ne_zero
    field_simp
    ring

/-- Bosons. -/
theorem IsLoop.bose (h : IsLoop om E K N F) (hE : ∀ a, 0 < E a) (hK : ∀ b, 0 < K b) (iE : Function.Injective E)
    (iK : Function.Injective K) (ho : om ≠ 0) (hN : N.natDegree + 2 ≤ 2 * (Fintype.card A + Fintype.card B))
    {beta : ℝ} (hb : 0 < beta) {l : ℤ} (hl : beta * om = 2 * π * l) :
    (Summable fun n : ℤ => F (2 * π * n / beta)) ∧ (Integrable fun w : ℝ => F w) ∧
    1 / beta * ∑' n : ℤ, F (2 * π * n / beta) - 1 / (2 * π) * ∫ w : ℝ, F w =
      ∑ a, Spec.bose beta (E a) / (2 * E a) * (Spec.atPole F (E a) (I * E a) + Spec.atPole F (E a) (-(I * E a)))
      + ∑ b, Spec.bose beta (K b) / (2 * K b) * (Spec.atPole (fun w => F (-(om + w))) (K b) (I * K b) + Spec.atPole (fun w => F (-(om + w))) (K b) (-(I * K b))) := by
  have key := h.sum_sub_integral hE hK iE iK ho hN hb (c := 0) (by simpa using pole_im_ne hE hK)
  simp only [add_zero] at key
  refine ⟨key.1, key.2.1, key.2.2.trans ?_⟩
  congr 1 <;> refine Finset.sum_congr rfl fun a _ => ?_
  · have w1 := weight_up hb (hE a) (r := 0) (l := 0) (by simp)
    have w2 := weight_down hb (hE a) (r := 0) (l := 0) (by simp)
    rw [show (I * E a : ℂ) = (0 : ℝ) + E a * I by push_cast; ring, w1, show -((0 : ℝ) + E a * I : ℂ) = (0 : ℝ) - E a * I by push_cast; ring, w2]
    have h0 : (E a : ℂ) ≠ 0 := by exact_mod_cast (hE a).ne'
    have := I_ne_zero
    field_simp
    ring
  · have w1 := weight_up hb (hK a) (r := -om) (l := -l) (by push_cast; linarith)
    have w2 := weight_down hb (hK a) (r := -om) (l := -l) (by push_cast; linarith)
    rw [show (-om + I * K a : ℂ) = (-om : ℝ) + K a * I by push_cast; ring, w1, show (-om - I * K a : ℂ) = (-om : ℝ) - K a * I by push_cast; ring, w2]
    have h0 : (K a : ℂ) ≠ 0 := by exact_mod_cast (hK a).ne'
    have := I_ne_zero
    field_simp
    ring

end loop

end Qcd.Matsubara
