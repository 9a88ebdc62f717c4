import Verif.Props.MassDerivative
import Verif.Props.ThermalAlgebra

/-! # C39: mass-derivative integrands, special cases

Equal masses, a vanishing second mass, vanishing momentum, and the tadpoles.  Specification: `Verif/Spec/MassDerivative.lean`. -/

set_option linter.unusedSimpArgs false

namespace Qcd
open Filter Topology

theorem Spec.IsMassDerivative.congr {f g : ℝ → ℝ → ℂ} {d e : ℝ → ℂ} {M : ℝ} (h : Spec.IsMassDerivative f d M)
    (hf : ∀ q, 0 < q → ∀ M', f q M' = g q M') (hd : ∀ q, 0 < q → d q = e q) : Spec.IsMassDerivative g e M := by
  obtain ⟨f', S, h1, h2, h3, h4⟩ := h
  refine ⟨f', S, fun q hq => ?_, fun q hq => by rw [← hd q hq]; exact h2 q hq, h3, h4⟩
  have := h1 q hq
  rwa [show (fun M' => f q M') = fun M' => g q M' from funext fun M' => hf q hq M'] at this

/-! ### Equal masses: the library's equal-mass integrands are those of the derivative with respect to the first mass alone -/

/-- **C39**: `d_i_m_m_i_same_mass`. -/
theorem C39_d_i_m_m_i_same_mass {om : ℂ} {p M beta : ℝ} (hr : om.re ≠ 0) (hb : 0 < beta) (hM : 0 < M) (hp : p ≠ 0)
    (hi : |om.im| < Real.sqrt M) :
    Spec.IsMassDerivative (fun q M' => thermal.i_m_m_i q om p (Real.sqrt M') (Real.sqrt M) beta)
      (fun q => thermal.d_i_m_m_i_same_mass q om p (Real.sqrt M) beta) M :=
  (C39_d_i_m_m_i hr hb hM hp hi (m2 := Real.sqrt M) (hi.le.trans (le_abs_self _))).congr (fun _ _ _ => rfl)
    fun q _ => C35_thermal_same_mass.2.2.2.1 q om p (Real.sqrt M) beta

/-- **C39**: `d_i_m_m_l_i_same_mass`. -/
theorem C39_d_i_m_m_l_i_same_mass {om : ℂ} {p M beta : ℝ} (hr : om.re ≠ 0) (hb : 0 < beta) (hM : 0 < M) (hp : p ≠ 0)
    (hi : |om.im| < Real.sqrt M) :
    Spec.IsMassDerivative (fun q M' => thermal.i_m_m_l_i q om p (Real.sqrt M') (Real.sqrt M) beta)
      (fun q => thermal.d_i_m_m_l_i_same_mass q om p (Real.sqrt M) beta) M :=
  (C39_d_i_m_m_l_i hr hb hM hp hi (m2 := Real.sqrt M) (hi.le.trans (le_abs_self _))).congr (fun _ _ _ => rfl)
    fun q _ => C35_thermal_same_mass.2.2.2.2.1 q om p (Real.sqrt M) beta

/-- **C39**: `d_i_m_m_t_i_same_mass`. -/
theorem C39_d_i_m_m_t_i_same_mass {om : ℂ} {p M beta : ℝ} (hr : om.re ≠ 0) (hb : 0 < beta) (hM : 0 < M) (hp : p ≠ 0)
    (hi : |om.im| < Real.sqrt M) :
    Spec.IsMassDerivative (fun q M' => thermal.i_m_m_t_i q om p (Real.sqrt M') (Real.sqrt M) beta)
      (fun q => thermal.d_i_m_m_t_i_same_mass q om p (Real.sqrt M) beta) M :=
  (C39_d_i_m_m_t_i hr hb hM hp hi (m2 := Real.sqrt M) (hi.le.trans (le_abs_self _))).congr (fun _ _ _ => rfl)
    fun q _ => C35_thermal_same_mass.2.2.2.2.2 q om p (Real.sqrt M) beta

/-! ### Vanishing second mass -/

/-- **C39**: `d_i_m_0_i`. -/
theorem C39_d_i_m_0_i {om p M beta : ℝ} (hr : om ≠ 0) (hb : 0 < beta) (hM : 0 < M) (hp : p ≠ 0) :
    Spec.IsMassDerivative (fun q M' => thermal.i_m_0_i q (om : ℂ) p (Real.sqrt M') beta)
      (fun q => thermal.d_i_m_0_i q (om : ℂ) p (Real.sqrt M) beta) M :=
  (C39_d_i_m_m_i (om := om) (m2 := 0) (by simpa using hr) hb hM hp (by simpa using hM) (by simp)).congr
    (fun q hq M' => C35_thermal_second_mass_zero.1 q (om : ℂ) p (Real.sqrt M') beta hq)
    fun q hq => C35_thermal_second_mass_zero.2.2.2.1 q (om : ℂ) p (Real.sqrt M) beta hq

/-- **C39**: `d_i_m_0_l_i`. -/
theorem C39_d_i_m_0_l_i {om p M beta : ℝ} (hr : om ≠ 0) (hb : 0 < beta) (hM : 0 < M) (hp : p ≠ 0) :
    Spec.IsMassDerivative (fun q M' => thermal.i_m_0_l_i q (om : ℂ) p (Real.sqrt M') beta)
      (fun q => thermal.d_i_m_0_l_i q (om : ℂ) p (Real.sqrt M) beta) M :=
  (C39_d_i_m_m_l_i (om := om) (m2 := 0) (by simpa using hr) hb hM hp (by simpa using hM) (by simp)).congr
    (fun q hq M' => C35_thermal_second_mass_zero.2.1 q (om : ℂ) p (Real.sqrt M') beta hq)
    fun q hq => C35_thermal_second_mass_zero.2.2.2.2.1 q (om : ℂ) p (Real.sqrt M) beta hq

/-- **C39**: `d_i_m_0_t_i`. -/
theorem C39_d_i_m_0_t_i {om p M beta : ℝ} (hr : om ≠ 0) (hb : 0 < beta) (hM : 0 < M) (hp : p ≠ 0) :
    Spec.IsMassDerivative (fun q M' => thermal.i_m_0_t_i q (om : ℂ) p (Real.sqrt M') beta)
      (fun q => thermal.d_i_m_0_t_i q (om : ℂ) p (Real.sqrt M) beta) M :=
  (C39_d_i_m_m_t_i (om := om) (m2 := 0) (by simpa using hr) hb hM hp (by simpa using hM) (by simp)).congr
    (fun q hq M' => C35_thermal_second_mass_zero.2.2.1 q (om : ℂ) p (Real.sqrt M') beta hq)
    fun q hq => C35_thermal_second_mass_zero.2.2.2.2.2 q (om : ℂ) p (Real.sqrt M) beta hq

/-! ### Vanishing momentum -/

theorem R0inv_path {E d : ℝ → ℝ} {E' d' t : ℝ} (hE : HasDerivAt E E' t) (hd : HasDerivAt d d' t) {om : ℂ}
    (h : (R0 om (0 : ℝ) (E t) (d t)).im ≠ 0) :
    HasDerivAt (fun t => (R0 om (0 : ℝ) (E t) (d t))⁻¹)
      (-(2 * Complex.I * om * E' + d') * (R0 om (0 : ℝ) (E t) (d t))⁻¹ ^ 2) t := by
  have h0 : R0 om (0 : ℝ) (E t) (d t) ≠ 0 := fun h' => h (by rw [h']; simp)
  refine ((R0_path hE hd om 0).fun_inv h0).congr_deriv ?_
  field_simp

theorem R0inv_bound {M : ℝ} {om : ℂ} (hr : om.re ≠ 0) (hi : |om.im| < Real.sqrt M) (d : ℝ) :
    (fun q : ℝ => (R0 om (0 : ℝ) (eM q M) d)⁻¹) =O[atTop] (fun q : ℝ => q ^ 0) := by
  have hc : 0 < 2 * |om.re| * (Real.sqrt M - |om.im|) := by
    have := abs_pos.2 hr
    have : 0 < Real.sqrt M - |om.im| := by linarith
    positivity
  refine Asymptotics.IsBigO.of_bound (2 * |om.re| * (Real.sqrt M - |om.im|))⁻¹ (Eventually.of_forall fun q => ?_)
  rw [norm_inv, pow_zero, norm_one, mul_one]
  refine inv_anti₀ hc ?_
  refine le_trans ?_ (Complex.abs_im_le_norm _)
  rw [R0_im om _ (by simp) (by simp), Complex.ofReal_re, abs_mul, abs_mul, abs_two]
  have h1 := sqrt_le_eM q M
  have h2 := neg_abs_le om.im
  have h3 : Real.sqrt M - |om.im| ≤ |om.im + eM q M| := le_trans (by linarith) (le_abs_self _)
  exact mul_le_mul_of_nonneg_left h3 (by positivity)

theorem R0inv_zero {M : ℝ} {om : ℂ} (hr : om.re ≠ 0) (hi : |om.im| < Real.sqrt M) (d : ℝ) :
    Tendsto (fun q : ℝ => (R0 om (0 : ℝ) (eM q M) d)⁻¹) (𝓝[>] 0) (𝓝 (R0 om (0 : ℝ) (Real.sqrt M : ℝ) d)⁻¹) := by
  have hE : Tendsto (fun q : ℝ => (eM q M : ℂ)) (𝓝[>] 0) (𝓝 (Real.sqrt M : ℂ)) :=
    (Complex.continuous_ofReal.tendsto _).comp eM_tendsto_zero
  have hc : Continuous fun e : ℂ => R0 om (0 : ℝ) e d := by unfold R0; fun_prop
  have hR := (hc.tendsto _).comp hE
  exact hR.inv₀ fun h => strip_im hr hi 0 d (by simpa using congrArg Complex.im h)

/-- The bracket at vanishing momentum, with the power of `q` it carries. -/
theorem bracket_zm {om : ℂ} (hr : om.re ≠ 0) {n : ℕ} (hn : n < 3) :
    Bracket om (fun q E d => q ^ (n + 1) * ((R0 om (0 : ℝ) E d)⁻¹ + (R0 (-om) (0 : ℝ) E d)⁻¹))
      (fun q E d => (n + 1) * q ^ n * ((R0 om (0 : ℝ) E d)⁻¹ + (R0 (-om) (0 : ℝ) E d)⁻¹))
      (fun q E d => q ^ (n + 1) * (-(2 * Complex.I * om) * (R0 om (0 : ℝ) E d)⁻¹ ^ 2 + 2 * Complex.I * om * (R0 (-om) (0 : ℝ) E d)⁻¹ ^ 2))
      (fun q E d => -q ^ (n + 1) * ((R0 om (0 : ℝ) E d)⁻¹ ^ 2 + (R0 (-om) (0 : ℝ) E d)⁻¹ ^ 2)) where
  path := by
    intro q E d q' E' d' t hq hE hd hi
    have h1 := R0inv_path hE hd (strip_im hr hi 0 (d t))
    have h2 := R0inv_path hE hd (strip_im_neg hr hi 0 (d t))
    refine ((hq.ofReal_comp.fun_pow (n + 1)).mul (h1.add h2)).congr_deriv ?_
    simp only [Pi.add_apply, Nat.add_sub_cancel]
    push_cast
    ring
  zero := by
    intro M hM hi d
    have h1 := R0inv_zero hr hi d
    have h2 := R0inv_zero (om := -om) (by simpa using hr) (by simpa using hi) d
    have h3 : Tendsto (fun q : ℝ => (q : ℂ) ^ (n + 1)) (𝓝[>] 0) (𝓝 0) := by
      have : Continuous fun q : ℝ => (q : ℂ) ^ (n + 1) := by fun_prop
      simpa using (this.tendsto 0).mono_left nhdsWithin_le_nhds
    simpa using h3.mul (h1.add h2)
  growth := by
    intro M hM hi d
    have h1 := R0inv_bound hr hi d
    have h2 := R0inv_bound (om := -om) (by simpa using hr) (by simpa using hi) d
    have h3 : (fun q : ℝ => (q : ℂ) ^ (n + 1)) =O[atTop] (fun q : ℝ => q ^ 3) := by
      refine Asymptotics.IsBigO.of_bound 1 ?_
      filter_upwards [eventually_ge_atTop 1] with q hq
      rw [one_mul, norm_pow, norm_pow, Complex.norm_real]
      exact pow_le_pow_right₀ (by rw [Real.norm_of_nonneg (by linarith)]; exact hq) (by omega)
    exact (h3.mul (h1.add h2)).congr_right fun q => by simp

/-- **C39**: `zero_momentum::d_i_m_m_i`. -/
theorem C39_zero_momentum_d_i_m_m_i {om : ℂ} {m2 M beta : ℝ} (hr : om.re ≠ 0) (hb : 0 < beta) (hM : 0 < M)
    (hi : |om.im| < Real.sqrt M) (hi2 : |om.im| ≤ |m2|) :
    Spec.IsMassDerivative (fun q M => thermal.zero_momentum.i_m_m_i q om (Real.sqrt M) m2 beta)
      (fun q => thermal.zero_momentum.d_i_m_m_i q om (Real.sqrt M) m2 beta) M := by
  have e1 : ∀ e d : ℂ, om * om + e * (om * I * (2 : ℝ)) + d = R0 om (0 : ℝ) e d := fun e d => by simp only [R0, I]; push_cast; ring
  have e2 : ∀ e d : ℂ, om * om - e * (om * I * (2 : ℝ)) + d = R0 (-om) (0 : ℝ) e d := fun e d => by simp only [R0, I]; push_cast; ring
  have e3 : ∀ e a b : ℂ, om * om + e * (om * I * (2 : ℝ)) - (a - b) = R0 om (0 : ℝ) e (b - a) := fun e a b => by simp only [R0, I]; push_cast; ring
  have e4 : ∀ e a b : ℂ, om * om - e * (om * I * (2 : ℝ)) - (a - b) = R0 (-om) (0 : ℝ) e (b - a) := fun e a b => by simp only [R0, I]; push_cast; ring
  have hpi : (PI2 : ℂ) ≠ 0 := by rw [pi2_cast]; exact pow_ne_zero 2 (by exact_mod_cast Real.pi_ne_zero)
  refine (bracket_zm hr (n := 0) (by norm_num)).massDeriv (D := m2 * m2) hb hM hi (e2 := fun q => energy q m2) (h2 := fun q => (hB beta (energy q m2) : ℂ))
    (fun q hq => e2_strip hi2 hq) (1 / (4 * PI2)) ?_ ?_
  · intro q hq M' hM'
    simp only [thermal.zero_momentum.i_m_m_i, toC_real, toC_complex, ofR_complex, eM_eq hM'.le, hB, Real.mul_self_sqrt hM'.le, Complex.ofReal_sub,
      e1, e2, e3, e4]
    push_cast
    field_simp
  · intro q hq
    simp only [thermal.zero_momentum.d_i_m_m_i, zm_r_0_eq, toC_real, toC_complex, ofR_complex, eM_eq hM.le, hB, Real.mul_self_sqrt hM.le, Complex.ofReal_sub, neg_sub]
    push_cast
    generalize (R0 om 0 (eM q M) (m2 * m2 - M))⁻¹ = a1
    generalize (R0 (-om) 0 (eM q M) (m2 * m2 - M))⁻¹ = a3
    generalize (R0 om 0 (energy q m2 : ℝ) (M - m2 * m2))⁻¹ = a5
    generalize (R0 (-om) 0 (energy q m2 : ℝ) (M - m2 * m2))⁻¹ = a7
    generalize ((bose_distribution_zero_chempot (eM q M) beta : ℝ) : ℂ) / (eM q M : ℝ) = h1
    generalize ((bose_distribution_zero_chempot (energy q m2) beta : ℝ) : ℂ) / (energy q m2 : ℝ) = h2
    field_simp
    ring

/-- **C39**: `zero_momentum::d_i_m_m_l_i`. -/
theorem C39_zero_momentum_d_i_m_m_l_i {om : ℂ} {m2 M beta : ℝ} (hr : om.re ≠ 0) (hb : 0 < beta) (hM : 0 < M)
    (hi : |om.im| < Real.sqrt M) (hi2 : |om.im| ≤ |m2|) :
    Spec.IsMassDerivative (fun q M => thermal.zero_momentum.i_m_m_l_i q om (Real.sqrt M) m2 beta)
      (fun q => thermal.zero_momentum.d_i_m_m_l_i q om (Real.sqrt M) m2 beta) M := by
  have e1 : ∀ e d : ℂ, om * om + e * (om * I * (2 : ℝ)) + d = R0 om (0 : ℝ) e d := fun e d => by simp only [R0, I]; push_cast; ring
  have e2 : ∀ e d : ℂ, om * om - e * (om * I * (2 : ℝ)) + d = R0 (-om) (0 : ℝ) e d := fun e d => by simp only [R0, I]; push_cast; ring
  have e3 : ∀ e a b : ℂ, om * om + e * (om * I * (2 : ℝ)) - (a - b) = R0 om (0 : ℝ) e (b - a) := fun e a b => by simp only [R0, I]; push_cast; ring
  have e4 : ∀ e a b : ℂ, om * om - e * (om * I * (2 : ℝ)) - (a - b) = R0 (-om) (0 : ℝ) e (b - a) := fun e a b => by simp only [R0, I]; push_cast; ring
  have hpi : (PI2 : ℂ) ≠ 0 := by rw [pi2_cast]; exact pow_ne_zero 2 (by exact_mod_cast Real.pi_ne_zero)
  refine (bracket_zm hr (n := 2) (by norm_num)).massDeriv (D := m2 * m2) hb hM hi (e2 := fun q => energy q m2) (h2 := fun q => (hB beta (energy q m2) : ℂ))
    (fun q hq => e2_strip hi2 hq) (1 / (12 * PI2)) ?_ ?_
  · intro q hq M' hM'
    simp only [thermal.zero_momentum.i_m_m_l_i, toC_real, toC_complex, ofR_complex, eM_eq hM'.le, hB, Real.mul_self_sqrt hM'.le, Complex.ofReal_sub,
      e1, e2, e3, e4]
    push_cast
    field_simp
  · intro q hq
    simp only [thermal.zero_momentum.d_i_m_m_l_i, zm_r_0_eq, toC_real, toC_complex, ofR_complex, eM_eq hM.le, hB, Real.mul_self_sqrt hM.le, Complex.ofReal_sub, neg_sub]
    push_cast
    generalize (R0 om 0 (eM q M) (m2 * m2 - M))⁻¹ = a1
    generalize (R0 (-om) 0 (eM q M) (m2 * m2 - M))⁻¹ = a3
    generalize (R0 om 0 (energy q m2 : ℝ) (M - m2 * m2))⁻¹ = a5
    generalize (R0 (-om) 0 (energy q m2 : ℝ) (M - m2 * m2))⁻¹ = a7
    generalize ((bose_distribution_zero_chempot (eM q M) beta : ℝ) : ℂ) / (eM q M : ℝ) = h1
    generalize ((bose_distribution_zero_chempot (energy q m2) beta : ℝ) : ℂ) / (energy q m2 : ℝ) = h2
    field_simp
    ring

/-- **C39**: `zero_momentum::d_i_m_m_t_i`. -/
theorem C39_zero_momentum_d_i_m_m_t_i {om : ℂ} {m2 M beta : ℝ} (hr : om.re ≠ 0) (hb : 0 < beta) (hM : 0 < M)
    (hi : |om.im| < Real.sqrt M) (hi2 : |om.im| ≤ |m2|) :
    Spec.IsMassDerivative (fun q M => thermal.zero_momentum.i_m_m_t_i q om (Real.sqrt M) m2 beta)
      (fun q => thermal.zero_momentum.d_i_m_m_t_i q om (Real.sqrt M) m2 beta) M :=
  C39_zero_momentum_d_i_m_m_l_i hr hb hM hi hi2

/-! ### Tadpoles -/

/-- The general step: an integrand `c q^(n+2) F(ε)` has the mass derivative `-c (n+1)/2 q^n F(ε)`. -/
theorem tadpole_massDeriv {beta M : ℝ} (hb : 0 < beta) (hM : 0 < M) (c : ℝ) (n j : ℕ) {f : ℝ → ℝ → ℝ} {d : ℝ → ℝ}
    (hf : ∀ q, ∀ M', 0 < M' → f q M' = c * q ^ (n + 2) * (hB beta (eM q M') * eM q M' ^ j))
    (hd : ∀ q, d q = -c * (n + 1) / 2 * q ^ n * (hB beta (eM q M) * eM q M ^ j)) :
    Spec.IsMassDerivative (fun q M => (f q M : ℂ)) (fun q => (d q : ℂ)) M := by
  choose hB' hBd using fun q => hB_diff hb (eM_pos (q := q) hM)
  refine ⟨fun q => ((c * q ^ (n + 2) * (hB' q / (2 * eM q M) * eM q M ^ j
      + hB beta (eM q M) * (j * eM q M ^ (j - 1) / (2 * eM q M))) : ℝ) : ℂ),
    fun q => ((c / 2 * q ^ (n + 1) * (hB beta (eM q M) * eM q M ^ j) : ℝ) : ℂ), ?_, ?_, ?_, ?_⟩
  · intro q _
    refine HasDerivAt.ofReal_comp (f := fun M => f q M) ?_
    have k1 := (hBd q).comp M (eM_deriv_M hM)
    have k2 := (eM_deriv_M (q := q) hM).fun_pow j
    refine (((k1.mul k2).const_mul (c * q ^ (n + 2))).congr_of_eventuallyEq ?_).congr_deriv ?_
    · filter_upwards [Ioi_mem_nhds hM] with x hx
      rw [hf q x hx]; simp [Function.comp_def]
    · simp only [Function.comp_def]; ring
  · intro q _
    have k1 := (hBd q).comp q (eM_deriv_q hM)
    have k2 := (eM_deriv_q (q := q) hM).fun_pow j
    have k3 := ((hasDerivAt_id q).fun_pow (n + 1)).const_mul (c / 2)
    rw [← Complex.ofReal_sub]
    refine HasDerivAt.ofReal_comp (f := fun q => c / 2 * q ^ (n + 1) * (hB beta (eM q M) * eM q M ^ j)) ?_
    refine ((k3.mul (k1.mul k2)).congr_of_eventuallyEq (Eventually.of_forall fun x => by simp [Function.comp_def])).congr_deriv ?_
    rw [hd q]
    have h0 := (eM_pos (q := q) hM).ne'
    simp only [Function.comp_def, id, Nat.add_sub_cancel, Pi.mul_apply]
    push_cast
    field_simp
    ring
  · have h1 := (hB_zero hb hM).mul ((eM_tendsto_zero (M := M)).pow j)
    have h2 : Tendsto (fun q : ℝ => c / 2 * q ^ (n + 1)) (𝓝[>] 0) (𝓝 0) := by
      have : Continuous fun q : ℝ => c / 2 * q ^ (n + 1) := by fun_prop
      simpa using (this.tendsto 0).mono_left nhdsWithin_le_nhds
    have := (Complex.continuous_ofReal.tendsto _).comp (h2.mul h1)
    simpa [Function.comp_def] using this
  · have hg : (fun q : ℝ => (c / 2 : ℂ) * ((q : ℂ) ^ (n + 1) * (eM q M : ℂ) ^ j)) =O[atTop] (fun q : ℝ => q ^ (n + 1 + j)) := by
      have := ((isBigO_q.pow (n + 1)).mul ((isBigO_eM hM.le).pow j)).const_mul_left (c / 2 : ℂ)
      exact this.congr_right fun q => by ring
    refine (hB_mul_tendsto hb hM hg).congr fun q => ?_
    push_cast
    ring

/-- **C39**: `d_j_m_i`, `d_j_m_l_i` and `d_j_m_t_i` are integrands for the mass derivatives of the integrals of
`j_m_i`, `j_m_l_i` and `j_m_t_i`, and `d2_j_m_t_i` for that of `d_j_m_t_i`. -/
theorem C39_tadpoles {M beta : ℝ} (hb : 0 < beta) (hM : 0 < M) :
    Spec.IsMassDerivative (fun q M => ((thermal.j_m_i q (Real.sqrt M) beta : ℝ) : ℂ)) (fun q => ((thermal.d_j_m_i q (Real.sqrt M) beta : ℝ) : ℂ)) M ∧
    Spec.IsMassDerivative (fun q M => ((thermal.j_m_l_i q (Real.sqrt M) beta : ℝ) : ℂ)) (fun q => ((thermal.d_j_m_l_i q (Real.sqrt M) beta : ℝ) : ℂ)) M ∧
    Spec.IsMassDerivative (fun q M => ((thermal.j_m_t_i q (Real.sqrt M) beta : ℝ) : ℂ)) (fun q => ((thermal.d_j_m_t_i q (Real.sqrt M) beta : ℝ) : ℂ)) M ∧
    Spec.IsMassDerivative (fun q M => ((thermal.d_j_m_t_i q (Real.sqrt M) beta : ℝ) : ℂ)) (fun q => ((thermal.d2_j_m_t_i q (Real.sqrt M) beta : ℝ) : ℂ)) M := by
  have h0 : ∀ q : ℝ, ∀ M' : ℝ, 0 < M' → eM q M' ≠ 0 := fun q M' h => (eM_pos h).ne'
  have hpi : PI2 ≠ 0 := (mul_pos Real.pi_pos Real.pi_pos).ne'
  refine ⟨tadpole_massDeriv hb hM (1 / (2 * PI2)) 0 0 ?_ ?_, tadpole_massDeriv hb hM (-(1 / (2 * PI2))) 0 2 ?_ ?_,
    tadpole_massDeriv hb hM (1 / (6 * PI2)) 2 0 ?_ ?_, tadpole_massDeriv hb hM (-(1 / (4 * PI2))) 0 0 ?_ ?_⟩
  all_goals first | intro q M' hM' | intro q
  all_goals first | have h := h0 q M' hM' | have h := h0 q M hM
  all_goals first
    | simp only [thermal.j_m_i, thermal.j_m_l_i, thermal.j_m_t_i, thermal.d_j_m_t_i, ofR_real, eM_eq hM'.le, hB]
    | simp only [thermal.d_j_m_i, thermal.d_j_m_l_i, thermal.d_j_m_t_i, thermal.d2_j_m_t_i, ofR_real, eM_eq hM.le, hB]
  all_goals first
    | (field_simp; done)
    | (field_simp; ring1)
    | (push_cast; field_simp; ring1)

theorem bose_deriv {beta e : ℝ} (hb : 0 < beta) (he : 0 < e) :
    HasDerivAt (fun e => bose_distribution_zero_chempot e beta)
      (beta * (bose_distribution_zero_chempot e beta * bose_distribution_zero_chempot (-e) beta)) e := by
  have h := ((((hasDerivAt_id e).mul_const beta).exp).sub_const 1).fun_inv (exp_sub_ne hb he)
  have key : ∀ x : ℝ, bose_distribution_zero_chempot x beta = (Real.exp (x * beta) - 1)⁻¹ := fun x => by
    simp [bose_distribution_zero_chempot, statistic_distribution_exponential_zero_chempot]
  refine (h.congr_of_eventuallyEq (Eventually.of_forall fun x => key x)).congr_deriv ?_
  rw [key, key, neg_mul, Real.exp_neg]
  have h1 := exp_sub_ne hb he
  have h2 := (Real.exp_pos (e * beta)).ne'
  have h3 : (Real.exp (e * beta))⁻¹ - 1 ≠ 0 := by
    intro h'
    apply h1
    rw [sub_eq_zero] at h' ⊢
    exact inv_eq_one.1 h'
  have h4 : (1 - Real.exp (e * beta)) ≠ 0 := fun h' => h1 (by linarith)
  simp only [id]
  rw [show ((Real.exp (e * beta))⁻¹ - 1)⁻¹ = -Real.exp (e * beta) * (Real.exp (e * beta) - 1)⁻¹ by field_simp; ring]
  field_simp

/-- **C39**: the second-derivative integrands `d2_j_m_i` and `d2_j_m_l_i` are, at every momentum, the derivatives of the
first-derivative integrands with respect to the mass squared. -/
theorem C39_second_derivatives {q M beta : ℝ} (hb : 0 < beta) (hM : 0 < M) :
    HasDerivAt (fun M => thermal.d_j_m_i q (Real.sqrt M) beta) (thermal.d2_j_m_i q (Real.sqrt M) beta) M ∧
    HasDerivAt (fun M => thermal.d_j_m_l_i q (Real.sqrt M) beta) (thermal.d2_j_m_l_i q (Real.sqrt M) beta) M := by
  have he := eM_pos (q := q) hM
  have h0 := he.ne'
  have hpi : PI2 ≠ 0 := (mul_pos Real.pi_pos Real.pi_pos).ne'
  have hE := eM_deriv_M (q := q) hM
  have hB := (bose_deriv hb he).comp M hE
  constructor
  · have h := hB.neg.fun_div ((hE.mul_const 4).mul_const PI2) (by positivity)
    refine (h.congr_of_eventuallyEq ?_).congr_deriv ?_
    · filter_upwards [Ioi_mem_nhds hM] with x hx
      simp only [thermal.d_j_m_i, ofR_real, eM_eq (le_of_lt hx), Function.comp_def, Pi.neg_apply]
    · simp only [thermal.d2_j_m_i, ofR_real, eM_eq hM.le, Function.comp_def, Pi.neg_apply]
      field_simp
      ring
  · have h := (hE.fun_mul hB).div_const (4 * PI2)
    refine (h.congr_of_eventuallyEq ?_).congr_deriv ?_
    · filter_upwards [Ioi_mem_nhds hM] with x hx
      simp only [thermal.d_j_m_l_i, ofR_real, eM_eq (le_of_lt hx), Function.comp_def]
    · simp only [thermal.d2_j_m_l_i, ofR_real, eM_eq hM.le, Function.comp_def]
      field_simp
      ring

/-- The hypotheses are met: a complex frequency with a non-zero imaginary part, and two different masses. -/
example : Spec.IsMassDerivative (fun q M => thermal.i_m_m_l_i q (⟨2, 1⟩ : ℂ) 3 (Real.sqrt M) (5 : ℝ) 1)
    (fun q => thermal.d_i_m_m_l_i q (⟨2, 1⟩ : ℂ) 3 (Real.sqrt 4) (5 : ℝ) 1) 4 :=
  C39_d_i_m_m_l_i (by norm_num) one_pos (by norm_num) (by norm_num)
    (by rw [show (4 : ℝ) = 2 ^ 2 by norm_num, Real.sqrt_sq two_pos.le]; norm_num) (by norm_num)

end Qcd
