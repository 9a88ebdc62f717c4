import Verif.Lemmas.ThermalLog
import Mathlib.Analysis.SpecialFunctions.Complex.LogBounds
import Mathlib.Analysis.SpecialFunctions.Complex.LogDeriv

/-! Helper lemmas for the limit of vanishing momentum: the logarithm to third order. -/

namespace Qcd
open Filter Topology

theorem log_quot {x : ℂ} (hx : ‖x‖ < 1) : Complex.log ((1 + x) / (1 - x)) = Complex.log (1 + x) - Complex.log (1 - x) := by
  have hre := abs_lt.1 ((Complex.abs_re_le_norm x).trans_lt hx)
  have h1 : 0 < (1 + x).re := by simp; linarith
  have h2 : 0 < (1 - x).re := by simp; linarith
  have n1 : (1 + x) ≠ 0 := fun h => by rw [h] at h1; simp at h1
  have n2 : (1 - x) ≠ 0 := fun h => by rw [h] at h2; simp at h2
  have a1 := abs_lt.1 (Complex.abs_arg_lt_pi_div_two_iff.2 (Or.inl h1))
  have a2 := abs_lt.1 (Complex.abs_arg_lt_pi_div_two_iff.2 (Or.inl h2))
  have him : (Complex.log (1 + x) - Complex.log (1 - x)).im = (1 + x).arg - (1 - x).arg := by simp [Complex.log_im]
  rw [← Complex.log_exp (x := Complex.log (1 + x) - Complex.log (1 - x)) (by rw [him]; linarith) (by rw [him]; linarith),
    Complex.exp_sub, Complex.exp_log n1, Complex.exp_log n2]

/-- The remainder of `log((1+x)/(1-x)) = 2x + x³ Ψ(x)`. -/
noncomputable def Psi (x : ℂ) : ℂ := (Complex.log ((1 + x) / (1 - x)) - 2 * x) / x ^ 3

theorem Psi_eq {x : ℂ} (hx : x ≠ 0) : Complex.log ((1 + x) / (1 - x)) = 2 * x + x ^ 3 * Psi x := by
  unfold Psi; field_simp; ring

theorem logTaylor_four (z : ℂ) : Complex.logTaylor (3 + 1) z = z - z ^ 2 / 2 + z ^ 3 / 3 := by
  simp [Complex.logTaylor, Finset.sum_range_succ]; ring

theorem Psi_tendsto : Tendsto Psi (𝓝[≠] 0) (𝓝 (2 / 3)) := by
  rw [tendsto_iff_norm_sub_tendsto_zero]
  have hb : ∀ᶠ x : ℂ in 𝓝[≠] 0, ‖Psi x - 2 / 3‖ ≤ ‖x‖ := by
    have h1 : ∀ᶠ x : ℂ in 𝓝[≠] 0, ‖x‖ < 1 / 2 := by
      refine eventually_nhdsWithin_of_eventually_nhds ?_
      exact (continuous_norm.tendsto (0 : ℂ)).eventually (gt_mem_nhds (by simp))
    filter_upwards [h1, self_mem_nhdsWithin] with x hx h0
    have hx1 : ‖x‖ < 1 := by linarith
    have e1 := Complex.norm_log_sub_logTaylor_le 3 hx1
    have e2 := Complex.norm_log_sub_logTaylor_le 3 (z := -x) (by simpa using hx1)
    rw [logTaylor_four] at e1 e2
    rw [norm_neg] at e2
    have hx0 : x ≠ 0 := h0
    have hxn : 0 < ‖x‖ := norm_pos_iff.2 hx0
    have key : Psi x - 2 / 3 = ((Complex.log (1 + x) - (x - x ^ 2 / 2 + x ^ 3 / 3)) -
        (Complex.log (1 + -x) - (-x - (-x) ^ 2 / 2 + (-x) ^ 3 / 3))) / x ^ 3 := by
      unfold Psi
      rw [log_quot hx1, ← sub_eq_add_neg]
      field_simp
      ring
    rw [key, norm_div, norm_pow, div_le_iff₀ (by positivity)]
    refine (norm_sub_le _ _).trans ((add_le_add e1 e2).trans ?_)
    have hi : (1 - ‖x‖)⁻¹ ≤ 2 := by
      rw [inv_le_comm₀ (by linarith) (by norm_num)]; linarith
    have h4 : 0 ≤ ‖x‖ ^ (3 + 1) := by positivity
    have := mul_le_mul_of_nonneg_left hi h4
    push_cast
    nlinarith [this, h4]
  have h0 : Tendsto (fun x : ℂ => ‖x‖) (𝓝[≠] 0) (𝓝 0) := by
    simpa using (continuous_norm.tendsto (0 : ℂ)).mono_left nhdsWithin_le_nhds
  exact squeeze_zero' (Eventually.of_forall fun x => norm_nonneg _) hb h0

/-! ### Curves `p → 0` -/

variable {om E d : ℂ} {q : ℝ}

/-- The remainder along `p`. -/
noncomputable def PsiP (q : ℝ) (om E d : ℂ) (p : ℝ) : ℂ := Psi (2 * q * p / R0 om p E d)

theorem ofReal_tendsto_zero : Tendsto (fun p : ℝ => (p : ℂ)) (𝓝[≠] 0) (𝓝 0) := by
  have h := Complex.continuous_ofReal.tendsto 0
  rw [Complex.ofReal_zero] at h
  exact h.mono_left nhdsWithin_le_nhds

theorem R0_tendsto (om E d : ℂ) : Tendsto (fun p : ℝ => R0 om p E d) (𝓝[≠] 0) (𝓝 (R0 om 0 E d)) := by
  have hc : Continuous fun p : ℂ => R0 om p E d := by unfold R0; fun_prop
  exact (hc.tendsto 0).comp ofReal_tendsto_zero

theorem R0_ne_eventually (h : R0 om 0 E d ≠ 0) : ∀ᶠ p : ℝ in 𝓝[≠] 0, R0 om p E d ≠ 0 :=
  (R0_tendsto om E d).eventually_ne h

theorem PsiP_tendsto (hq : 0 < q) (h : R0 om 0 E d ≠ 0) : Tendsto (PsiP q om E d) (𝓝[≠] 0) (𝓝 (2 / 3)) := by
  refine Psi_tendsto.comp (tendsto_nhdsWithin_iff.2 ⟨?_, ?_⟩)
  · have := (ofReal_tendsto_zero.const_mul (2 * (q : ℂ))).mul ((R0_tendsto om E d).inv₀ h)
    simpa [div_eq_mul_inv] using this
  · filter_upwards [R0_ne_eventually h, self_mem_nhdsWithin] with p h1 h2
    have : (p : ℂ) ≠ 0 := by exact_mod_cast h2
    have : (q : ℂ) ≠ 0 := by exact_mod_cast hq.ne'
    simp [*]

theorem TL_eventually (hq : 0 < q) (h : R0 om 0 E d ≠ 0) :
    ∀ᶠ p : ℝ in 𝓝[≠] 0, TL q om p E d = 4 * q * p / R0 om p E d + (2 * q * p / R0 om p E d) ^ 3 * PsiP q om E d p := by
  filter_upwards [R0_ne_eventually h, self_mem_nhdsWithin] with p h1 h2
  have hp : (p : ℂ) ≠ 0 := by exact_mod_cast h2
  have hq' : (q : ℂ) ≠ 0 := by exact_mod_cast hq.ne'
  rw [PsiP, show (4 * (q : ℂ) * p / R0 om p E d) = 2 * (2 * q * p / R0 om p E d) by ring, ← Psi_eq (by simp [*])]
  unfold TL
  congr 1
  generalize R0 om p E d = R at *
  rw [show (p : ℂ) * q * 2 + R = R * (1 + 2 * q * p / R) by field_simp; ring,
    show -((p : ℂ) * q * 2) + R = R * (1 - 2 * q * p / R) by field_simp; ring, mul_div_mul_left _ _ h1]

theorem RPM_eventually (h : R0 om 0 E d ≠ 0) :
    ∀ᶠ p : ℝ in 𝓝[≠] 0, R0 om p E d + 2 * q * p ≠ 0 ∧ R0 om p E d - 2 * q * p ≠ 0 := by
  have h1 : Tendsto (fun p : ℝ => R0 om p E d + 2 * q * p) (𝓝[≠] 0) (𝓝 (R0 om 0 E d)) := by
    simpa using (R0_tendsto om E d).add (ofReal_tendsto_zero.const_mul (2 * (q : ℂ)))
  have h2 : Tendsto (fun p : ℝ => R0 om p E d - 2 * q * p) (𝓝[≠] 0) (𝓝 (R0 om 0 E d)) := by
    simpa using (R0_tendsto om E d).sub (ofReal_tendsto_zero.const_mul (2 * (q : ℂ)))
  exact (h1.eventually_ne h).and (h2.eventually_ne h)

/-! ### The brackets of a leg, as functions of the momentum, and their limits -/

/-- Both signs of the frequency are free of poles at vanishing momentum. -/
def AtRest (om E d : ℂ) : Prop := R0 om 0 E d ≠ 0 ∧ R0 (-om) 0 E d ≠ 0

noncomputable def GS (q : ℝ) (om E d : ℂ) (p : ℝ) : ℂ := TL q om p E d + TL q (-om) p E d
noncomputable def Rp (q : ℝ) (om E d : ℂ) (p : ℝ) : ℂ := (R0 om p E d + 2 * q * p)⁻¹
noncomputable def Rm (q : ℝ) (om E d : ℂ) (p : ℝ) : ℂ := (R0 om p E d - 2 * q * p)⁻¹
noncomputable def GSq (q : ℝ) (om E d : ℂ) (p : ℝ) : ℂ :=
  2 * p * (Rp q om E d p + Rm q om E d p) + 2 * p * (Rp q (-om) E d p + Rm q (-om) E d p)
noncomputable def GSd (q : ℝ) (om E d : ℂ) (p : ℝ) : ℂ :=
  (Rp q om E d p - Rm q om E d p) + (Rp q (-om) E d p - Rm q (-om) E d p)
noncomputable def GLn (q : ℝ) (om E d : ℂ) (p : ℝ) : ℂ :=
  PF om p E d ^ 2 * TL q om p E d + PF (-om) p E d ^ 2 * TL q (-om) p E d - 8 * q * p * (om ^ 2 + p ^ 2 + d)
noncomputable def GLnq (q : ℝ) (om E d : ℂ) (p : ℝ) : ℂ :=
  PF om p E d ^ 2 * (2 * p * (Rp q om E d p + Rm q om E d p)) + PF (-om) p E d ^ 2 * (2 * p * (Rp q (-om) E d p + Rm q (-om) E d p))
    - 8 * p * (om ^ 2 + p ^ 2 + d)
noncomputable def GLnd (q : ℝ) (om E d : ℂ) (p : ℝ) : ℂ :=
  2 * PF om p E d * TL q om p E d + PF om p E d ^ 2 * (Rp q om E d p - Rm q om E d p)
    + 2 * PF (-om) p E d * TL q (-om) p E d + PF (-om) p E d ^ 2 * (Rp q (-om) E d p - Rm q (-om) E d p) - 8 * q * p
noncomputable def GT (q : ℝ) (om E d : ℂ) (p : ℝ) : ℂ :=
  (R0 om p E d ^ 2 - (2 * q * p) ^ 2) * TL q om p E d + (R0 (-om) p E d ^ 2 - (2 * q * p) ^ 2) * TL q (-om) p E d
    - 8 * q * p * (om ^ 2 + p ^ 2 + d)
noncomputable def GTq (q : ℝ) (om E d : ℂ) (p : ℝ) : ℂ :=
  -8 * q * p ^ 2 * (TL q om p E d + TL q (-om) p E d)
noncomputable def GTd (q : ℝ) (om E d : ℂ) (p : ℝ) : ℂ :=
  2 * R0 om p E d * TL q om p E d + 2 * R0 (-om) p E d * TL q (-om) p E d - 16 * q * p

/-- A rational expression in `p`, `R` and the remainder tends to its value at rest. -/
theorem tendsto_phi (hq : 0 < q) (h : R0 om 0 E d ≠ 0) {Φ : ℂ × ℂ × ℂ → ℂ} (hΦ : ContinuousAt Φ (0, R0 om 0 E d, 2 / 3)) :
    Tendsto (fun p : ℝ => Φ (p, R0 om p E d, PsiP q om E d p)) (𝓝[≠] 0) (𝓝 (Φ (0, R0 om 0 E d, 2 / 3))) :=
  hΦ.tendsto.comp (ofReal_tendsto_zero.prodMk_nhds ((R0_tendsto om E d).prodMk_nhds (PsiP_tendsto hq h)))

theorem tendsto_two (hq : 0 < q) (h : AtRest om E d) {Φ Φ' : ℂ × ℂ × ℂ → ℂ} (hΦ : ContinuousAt Φ (0, R0 om 0 E d, 2 / 3))
    (hΦ' : ContinuousAt Φ' (0, R0 (-om) 0 E d, 2 / 3)) {G : ℝ → ℂ} {v : ℂ}
    (hG : ∀ᶠ p : ℝ in 𝓝[≠] 0, G p = Φ (p, R0 om p E d, PsiP q om E d p) + Φ' (p, R0 (-om) p E d, PsiP q (-om) E d p))
    (hv : v = Φ (0, R0 om 0 E d, 2 / 3) + Φ' (0, R0 (-om) 0 E d, 2 / 3)) :
    Tendsto G (𝓝[≠] 0) (𝓝 v) := by
  rw [hv]
  exact ((tendsto_phi hq h.1 hΦ).add (tendsto_phi hq h.2 hΦ')).congr' (hG.mono fun p hp => hp.symm)

theorem GS_tendsto (hq : 0 < q) (h : AtRest om E d) :
    Tendsto (fun p : ℝ => GS q om E d p / p) (𝓝[≠] 0) (𝓝 (4 * q * ((R0 om 0 E d)⁻¹ + (R0 (-om) 0 E d)⁻¹))) := by
  have c : ∀ A : ℂ, A ≠ 0 → ContinuousAt (fun x : ℂ × ℂ × ℂ => 4 * q / x.2.1 + 8 * q ^ 3 * x.1 ^ 2 / x.2.1 ^ 3 * x.2.2) (0, A, 2 / 3) := by
    intro A hA; fun_prop (disch := simpa using hA)
  refine tendsto_two hq h (c _ h.1) (c _ h.2) ?_ ?_
  · filter_upwards [TL_eventually hq h.1, TL_eventually hq h.2, R0_ne_eventually h.1, R0_ne_eventually h.2, self_mem_nhdsWithin] with p h1 h2 h3 h4 h5
    have hp : (p : ℂ) ≠ 0 := by exact_mod_cast h5
    rw [GS, h1, h2]
    field_simp
    ring
  · simp; ring

theorem GSq_tendsto (hq : 0 < q) (h : AtRest om E d) :
    Tendsto (fun p : ℝ => GSq q om E d p / p) (𝓝[≠] 0) (𝓝 (4 * ((R0 om 0 E d)⁻¹ + (R0 (-om) 0 E d)⁻¹))) := by
  have c : ∀ A : ℂ, A ≠ 0 → ContinuousAt (fun x : ℂ × ℂ × ℂ => 2 * ((x.2.1 + 2 * q * x.1)⁻¹ + (x.2.1 - 2 * q * x.1)⁻¹)) (0, A, 2 / 3) := by
    intro A hA; fun_prop (disch := simpa using hA)
  refine tendsto_two hq h (c _ h.1) (c _ h.2) ?_ ?_
  · filter_upwards [self_mem_nhdsWithin] with p h5
    have hp : (p : ℂ) ≠ 0 := by exact_mod_cast h5
    simp only [GSq, Rp, Rm]
    field_simp
  · simp; ring

theorem pm_inv {R b : ℂ} (h1 : R + b ≠ 0) (h2 : R - b ≠ 0) : (R + b)⁻¹ - (R - b)⁻¹ = -(2 * b) / ((R + b) * (R - b)) := by
  field_simp; ring

theorem pp_inv {R b : ℂ} (h1 : R + b ≠ 0) (h2 : R - b ≠ 0) : (R + b)⁻¹ + (R - b)⁻¹ = 2 * R / ((R + b) * (R - b)) := by
  field_simp; ring

theorem sq_inv {R b : ℂ} (h1 : R + b ≠ 0) (h2 : R - b ≠ 0) : R ^ 2 * ((R + b) * (R - b))⁻¹ = 1 + b ^ 2 * ((R + b) * (R - b))⁻¹ := by
  have h : (R + b) * (R - b) ≠ 0 := mul_ne_zero h1 h2
  field_simp
  ring

theorem GSd_tendsto (hq : 0 < q) (h : AtRest om E d) :
    Tendsto (fun p : ℝ => GSd q om E d p / p) (𝓝[≠] 0) (𝓝 (-4 * q * ((R0 om 0 E d)⁻¹ ^ 2 + (R0 (-om) 0 E d)⁻¹ ^ 2))) := by
  have c : ∀ A : ℂ, A ≠ 0 → ContinuousAt (fun x : ℂ × ℂ × ℂ => -4 * q / ((x.2.1 + 2 * q * x.1) * (x.2.1 - 2 * q * x.1))) (0, A, 2 / 3) := by
    intro A hA; fun_prop (disch := simpa using hA)
  refine tendsto_two hq h (c _ h.1) (c _ h.2) ?_ ?_
  · filter_upwards [RPM_eventually (q := q) h.1, RPM_eventually (q := q) h.2, self_mem_nhdsWithin] with p h1 h2 h5
    have hp : (p : ℂ) ≠ 0 := by exact_mod_cast h5
    simp only [GSd, Rp, Rm]
    rw [pm_inv h1.1 h1.2, pm_inv h2.1 h2.2]
    field_simp
    ring
  · simp; field_simp; ring

theorem PF_eq (om p E d : ℂ) : PF om p E d = R0 om p E d + 2 * Complex.I * E * om⁻¹ * p ^ 2 := by simp only [PF, R0]; ring

theorem PF_eq_neg (om p E d : ℂ) : PF (-om) p E d = R0 (-om) p E d - 2 * Complex.I * E * om⁻¹ * p ^ 2 := by
  simp only [PF, R0, inv_neg]; ring

theorem R0_sum (om p E d : ℂ) : om ^ 2 + p ^ 2 + d = (R0 om p E d + R0 (-om) p E d) / 2 := by simp only [R0]; ring

theorem GLn_tendsto (hq : 0 < q) (h : AtRest om E d) :
    Tendsto (fun p : ℝ => GLn q om E d p / p ^ 3) (𝓝[≠] 0) (𝓝 (16 / 3 * q ^ 3 * ((R0 om 0 E d)⁻¹ + (R0 (-om) 0 E d)⁻¹))) := by
  have c : ∀ A k : ℂ, A ≠ 0 → ContinuousAt (fun x : ℂ × ℂ × ℂ => 8 * q * k + 4 * q * k ^ 2 * x.1 ^ 2 / x.2.1
      + (x.2.1 + k * x.1 ^ 2) ^ 2 * (8 * q ^ 3) / x.2.1 ^ 3 * x.2.2) (0, A, 2 / 3) := by
    intro A k hA; fun_prop (disch := simpa using hA)
  refine tendsto_two hq h (c _ (2 * Complex.I * E * om⁻¹) h.1) (c _ (-(2 * Complex.I * E * om⁻¹)) h.2) ?_ ?_
  · filter_upwards [TL_eventually hq h.1, TL_eventually hq h.2, R0_ne_eventually h.1, R0_ne_eventually h.2, self_mem_nhdsWithin] with p h1 h2 h3 h4 h5
    have hp : (p : ℂ) ≠ 0 := by exact_mod_cast h5
    rw [GLn, h1, h2, PF_eq, PF_eq_neg, R0_sum om p E d]
    generalize 2 * Complex.I * E * om⁻¹ = k
    field_simp
    ring
  · generalize 2 * Complex.I * E * om⁻¹ = k
    have h1 := h.1
    have h2 := h.2
    simp
    field_simp
    ring

theorem GLnq_tendsto (hq : 0 < q) (h : AtRest om E d) :
    Tendsto (fun p : ℝ => GLnq q om E d p / p ^ 3) (𝓝[≠] 0) (𝓝 (16 * q ^ 2 * ((R0 om 0 E d)⁻¹ + (R0 (-om) 0 E d)⁻¹))) := by
  have c : ∀ A k : ℂ, A ≠ 0 → ContinuousAt (fun x : ℂ × ℂ × ℂ => 4 * x.2.1 * (4 * q ^ 2 + 2 * x.2.1 * k + k ^ 2 * x.1 ^ 2) /
      ((x.2.1 + 2 * q * x.1) * (x.2.1 - 2 * q * x.1))) (0, A, 2 / 3) := by
    intro A k hA; fun_prop (disch := simpa using hA)
  refine tendsto_two hq h (c _ (2 * Complex.I * E * om⁻¹) h.1) (c _ (-(2 * Complex.I * E * om⁻¹)) h.2) ?_ ?_
  · filter_upwards [RPM_eventually (q := q) h.1, RPM_eventually (q := q) h.2, self_mem_nhdsWithin] with p h1 h2 h5
    have hp : (p : ℂ) ≠ 0 := by exact_mod_cast h5
    simp only [GLnq, Rp, Rm]
    rw [pp_inv h1.1 h1.2, pp_inv h2.1 h2.2, PF_eq, PF_eq_neg, R0_sum om p E d]
    rw [div_eq_iff (pow_ne_zero 3 hp)]
    linear_combination (4 * p * R0 om p E d) * sq_inv h1.1 h1.2 + (4 * p * R0 (-om) p E d) * sq_inv h2.1 h2.2
  · generalize 2 * Complex.I * E * om⁻¹ = k
    have h1 := h.1
    have h2 := h.2
    simp
    field_simp
    ring

theorem GLnd_tendsto (hq : 0 < q) (h : AtRest om E d) :
    Tendsto (fun p : ℝ => GLnd q om E d p / p ^ 3) (𝓝[≠] 0) (𝓝 (-(16 / 3) * q ^ 3 * ((R0 om 0 E d)⁻¹ ^ 2 + (R0 (-om) 0 E d)⁻¹ ^ 2))) := by
  have c : ∀ A k : ℂ, A ≠ 0 → ContinuousAt (fun x : ℂ × ℂ × ℂ => 8 * q * k / x.2.1 + 16 * q ^ 3 * (x.2.1 + k * x.1 ^ 2) / x.2.1 ^ 3 * x.2.2
      - 4 * q * (4 * q ^ 2 + 2 * x.2.1 * k + k ^ 2 * x.1 ^ 2) / ((x.2.1 + 2 * q * x.1) * (x.2.1 - 2 * q * x.1))) (0, A, 2 / 3) := by
    intro A k hA; fun_prop (disch := simpa using hA)
  refine tendsto_two hq h (c _ (2 * Complex.I * E * om⁻¹) h.1) (c _ (-(2 * Complex.I * E * om⁻¹)) h.2) ?_ ?_
  · filter_upwards [TL_eventually hq h.1, TL_eventually hq h.2, RPM_eventually (q := q) h.1, RPM_eventually (q := q) h.2,
      R0_ne_eventually h.1, R0_ne_eventually h.2, self_mem_nhdsWithin] with p t1 t2 h1 h2 h3 h4 h5
    have hp : (p : ℂ) ≠ 0 := by exact_mod_cast h5
    simp only [GLnd, Rp, Rm]
    rw [pm_inv h1.1 h1.2, pm_inv h2.1 h2.2, PF_eq, PF_eq_neg, t1, t2]
    obtain ⟨a1, a2⟩ := h1
    obtain ⟨a3, a4⟩ := h2
    generalize 2 * Complex.I * E * om⁻¹ = k
    generalize R0 om p E d = A at *
    generalize R0 (-om) p E d = B at *
    have key : ∀ A k P : ℂ, A ≠ 0 → A + 2 * q * p ≠ 0 → A - 2 * q * p ≠ 0 →
        2 * (A + k * p ^ 2) * (4 * q * p / A + (2 * q * p / A) ^ 3 * P) + (A + k * p ^ 2) ^ 2 * (-(2 * (2 * q * p)) / ((A + 2 * q * p) * (A - 2 * q * p)))
          - 4 * q * p = p ^ 3 * (8 * q * k / A + 16 * q ^ 3 * (A + k * p ^ 2) / A ^ 3 * P
      - 4 * q * (4 * q ^ 2 + 2 * A * k + k ^ 2 * p ^ 2) / ((A + 2 * q * p) * (A - 2 * q * p))) := by
      intro A k P hA h1 h2
      linear_combination (8 * q * p) * mul_inv_cancel₀ hA - (4 * q * p) * sq_inv h1 h2
    have e1 := key A k (PsiP q om E d p) h3 a1 a2
    have e2 := key B (-k) (PsiP q (-om) E d p) h4 a3 a4
    rw [div_eq_iff (pow_ne_zero 3 hp)]
    linear_combination e1 + e2
  · generalize 2 * Complex.I * E * om⁻¹ = k
    have h1 := h.1
    have h2 := h.2
    simp
    field_simp
    ring

theorem GT_tendsto (hq : 0 < q) (h : AtRest om E d) :
    Tendsto (fun p : ℝ => GT q om E d p / p ^ 3) (𝓝[≠] 0) (𝓝 (-(32 / 3) * q ^ 3 * ((R0 om 0 E d)⁻¹ + (R0 (-om) 0 E d)⁻¹))) := by
  have c : ∀ A : ℂ, A ≠ 0 → ContinuousAt (fun x : ℂ × ℂ × ℂ => -(16 * q ^ 3) / x.2.1
      + (x.2.1 ^ 2 - (2 * q * x.1) ^ 2) * (8 * q ^ 3) / x.2.1 ^ 3 * x.2.2) (0, A, 2 / 3) := by
    intro A hA; fun_prop (disch := simpa using hA)
  refine tendsto_two hq h (c _ h.1) (c _ h.2) ?_ ?_
  · filter_upwards [TL_eventually hq h.1, TL_eventually hq h.2, R0_ne_eventually h.1, R0_ne_eventually h.2, self_mem_nhdsWithin] with p h1 h2 h3 h4 h5
    have hp : (p : ℂ) ≠ 0 := by exact_mod_cast h5
    rw [GT, h1, h2, R0_sum om p E d]
    field_simp
    ring
  · have h1 := h.1
    have h2 := h.2
    simp
    field_simp
    ring

theorem GTq_tendsto (hq : 0 < q) (h : AtRest om E d) :
    Tendsto (fun p : ℝ => GTq q om E d p / p ^ 3) (𝓝[≠] 0) (𝓝 (-32 * q ^ 2 * ((R0 om 0 E d)⁻¹ + (R0 (-om) 0 E d)⁻¹))) := by
  have := (GS_tendsto hq h).const_mul (-8 * (q : ℂ))
  refine (this.congr' ?_).trans (by rw [show -8 * (q : ℂ) * (4 * q * ((R0 om 0 E d)⁻¹ + (R0 (-om) 0 E d)⁻¹)) = -32 * q ^ 2 * ((R0 om 0 E d)⁻¹ + (R0 (-om) 0 E d)⁻¹) by ring])
  filter_upwards [self_mem_nhdsWithin] with p h5
  have hp : (p : ℂ) ≠ 0 := by exact_mod_cast h5
  simp only [GTq, GS]
  field_simp

theorem GTd_tendsto (hq : 0 < q) (h : AtRest om E d) :
    Tendsto (fun p : ℝ => GTd q om E d p / p ^ 3) (𝓝[≠] 0) (𝓝 (32 / 3 * q ^ 3 * ((R0 om 0 E d)⁻¹ ^ 2 + (R0 (-om) 0 E d)⁻¹ ^ 2))) := by
  have c : ∀ A : ℂ, A ≠ 0 → ContinuousAt (fun x : ℂ × ℂ × ℂ => 16 * q ^ 3 / x.2.1 ^ 2 * x.2.2) (0, A, 2 / 3) := by
    intro A hA; fun_prop (disch := simpa using hA)
  refine tendsto_two hq h (c _ h.1) (c _ h.2) ?_ ?_
  · filter_upwards [TL_eventually hq h.1, TL_eventually hq h.2, R0_ne_eventually h.1, R0_ne_eventually h.2, self_mem_nhdsWithin] with p h1 h2 h3 h4 h5
    have hp : (p : ℂ) ≠ 0 := by exact_mod_cast h5
    rw [GTd, h1, h2]
    field_simp
    ring
  · have h1 := h.1
    have h2 := h.2
    simp
    field_simp
    ring

end Qcd
