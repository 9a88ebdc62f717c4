import Verif.Lemmas.MassDerivative
import Verif.Spec.MassDerivative
import Verif.Props.ThermalLoop
import Mathlib.MeasureTheory.Integral.IntegralEqImproper

/-! # C39: mass-derivative integrands

Specification: `Verif/Spec/MassDerivative.lean`. -/

set_option linter.unusedSimpArgs false

namespace Qcd
open Filter Topology

/-- The meaning of the specification: where both sides are integrable, the integrals agree. -/
theorem C39_integrals_agree {f : ℝ → ℝ → ℂ} {d : ℝ → ℂ} {M : ℝ} (h : Spec.IsMassDerivative f d M)
    (hf : MeasureTheory.IntegrableOn (fun q => deriv (fun M => f q M) M) (Set.Ioi 0))
    (hd : MeasureTheory.IntegrableOn d (Set.Ioi 0)) :
    ∫ q in Set.Ioi (0 : ℝ), deriv (fun M => f q M) M = ∫ q in Set.Ioi (0 : ℝ), d q := by
  obtain ⟨f', S, h1, h2, h3, h4⟩ := h
  have hf' : ∀ q ∈ Set.Ioi (0 : ℝ), deriv (fun M => f q M) M = f' q := fun q hq => (h1 q hq).deriv
  have hi : MeasureTheory.IntegrableOn (fun q => f' q - d q) (Set.Ioi 0) :=
    ((MeasureTheory.integrableOn_congr_fun hf' measurableSet_Ioi).1 hf).sub hd
  have hcont : ContinuousWithinAt (fun q => if q ≤ 0 then 0 else S q) (Set.Ici 0) 0 := by
    rw [← continuousWithinAt_Ioi_iff_Ici]
    unfold ContinuousWithinAt
    simp only [le_refl, if_true]
    refine h3.congr' ?_
    filter_upwards [self_mem_nhdsWithin] with q hq
    rw [if_neg (not_le.2 hq)]
  have hder : ∀ q ∈ Set.Ioi (0 : ℝ), HasDerivAt (fun q => if q ≤ 0 then 0 else S q) (f' q - d q) q := by
    intro q hq
    refine (h2 q hq).congr_of_eventuallyEq ?_
    filter_upwards [Ioi_mem_nhds hq] with x hx
    rw [if_neg (not_le.2 hx)]
  have hinf : Tendsto (fun q => if q ≤ 0 then 0 else S q) atTop (𝓝 0) := by
    refine h4.congr' ?_
    filter_upwards [eventually_gt_atTop 0] with q hq
    rw [if_neg (not_le.2 hq)]
  have := MeasureTheory.integral_Ioi_of_hasDerivAt_of_tendsto hcont hder hi hinf
  simp only [le_refl, if_true, sub_zero] at this
  rw [MeasureTheory.integral_sub ((MeasureTheory.integrableOn_congr_fun hf' measurableSet_Ioi).1 hf) hd] at this
  rw [MeasureTheory.setIntegral_congr_fun measurableSet_Ioi hf']
  exact sub_eq_zero.1 this

/-! ### Two-propagator loops: the general step -/

/-- The bracket of a leg: its partial derivatives with respect to `q`, the energy and the mass difference along any curve in the
region where the energy exceeds the imaginary part of the frequency, and its behaviour at both ends. -/
structure Bracket (om : ℂ) (G Gq GE Gd : ℝ → ℝ → ℝ → ℂ) : Prop where
  path : ∀ {q E d : ℝ → ℝ} {q' E' d' t : ℝ}, HasDerivAt q q' t → HasDerivAt E E' t → HasDerivAt d d' t → |om.im| < E t →
    HasDerivAt (fun t => G (q t) (E t) (d t)) (q' * Gq (q t) (E t) (d t) + E' * GE (q t) (E t) (d t) + d' * Gd (q t) (E t) (d t)) t
  zero : ∀ {M : ℝ}, 0 < M → |om.im| < Real.sqrt M → ∀ d, Tendsto (fun q => G q (eM q M) d) (𝓝[>] 0) (𝓝 0)
  growth : ∀ {M : ℝ}, 0 < M → |om.im| < Real.sqrt M → ∀ d, (fun q => G q (eM q M) d) =O[atTop] (fun q : ℝ => q ^ 3)

theorem Bracket.massDeriv {om : ℂ} {G Gq GE Gd : ℝ → ℝ → ℝ → ℂ} (hG : Bracket om G Gq GE Gd) {M D beta : ℝ} (hb : 0 < beta) (hM : 0 < M)
    (hi : |om.im| < Real.sqrt M) {e2 : ℝ → ℝ} {h2 : ℝ → ℂ} (he2 : ∀ q, 0 < q → |om.im| < e2 q) (pref : ℂ)
    {f : ℝ → ℝ → ℂ} {d : ℝ → ℂ}
    (hf : ∀ q, 0 < q → ∀ M', 0 < M' → f q M' = pref * q * (hB beta (eM q M') * G q (eM q M') (D - M') + h2 q * G q (e2 q) (M' - D)))
    (hd : ∀ q, 0 < q → d q = pref * (hB beta (eM q M) * (-q * Gd q (eM q M) (D - M) - Gq q (eM q M) (D - M) / 2) + q * h2 q * Gd q (e2 q) (M - D))) :
    Spec.IsMassDerivative f d M := by
  have hEi : ∀ q, |om.im| < eM q M := fun q => hi.trans_le (sqrt_le_eM q M)
  choose hB' hBd using fun q => hB_diff hb (eM_pos (q := q) hM)
  refine ⟨fun q => pref * q * (hB' q / (2 * eM q M) * G q (eM q M) (D - M)
      + hB beta (eM q M) * (GE q (eM q M) (D - M) / (2 * eM q M) - Gd q (eM q M) (D - M)) + h2 q * Gd q (e2 q) (M - D)),
    fun q => pref / 2 * (hB beta (eM q M) * G q (eM q M) (D - M)), ?_, ?_, ?_, ?_⟩
  · intro q hq
    have k1 := ((hBd q).comp M (eM_deriv_M hM)).ofReal_comp
    have k2 := hG.path (hasDerivAt_const M q) (eM_deriv_M (q := q) hM) ((hasDerivAt_id M).const_sub D) (hEi q)
    have k3 := hG.path (hasDerivAt_const M q) (hasDerivAt_const M (e2 q)) ((hasDerivAt_id M).sub_const D) (he2 q hq)
    have k := ((k1.mul k2).add (k3.const_mul (h2 q))).const_mul (pref * q)
    refine (k.congr_of_eventuallyEq ?_).congr_deriv ?_
    · filter_upwards [Ioi_mem_nhds hM] with x hx
      rw [hf q hq x hx]
      simp [Function.comp_def]
    · simp only [Function.comp_def, id]
      push_cast
      ring
  · intro q hq
    have k1 := ((hBd q).comp q (eM_deriv_q hM)).ofReal_comp
    have k2 := hG.path (hasDerivAt_id q) (eM_deriv_q (q := q) hM) (hasDerivAt_const q (D - M)) (hEi q)
    have k := (k1.mul k2).const_mul (pref / 2)
    refine (k.congr_of_eventuallyEq ?_).congr_deriv ?_
    · exact Eventually.of_forall fun x => by simp [Function.comp_def]
    · rw [hd q hq]
      simp only [Function.comp_def, id]
      have h0 : (eM q M : ℂ) ≠ 0 := by exact_mod_cast (eM_pos hM).ne'
      push_cast
      field_simp
      ring
  · have h := (((Complex.continuous_ofReal.tendsto _).comp (hB_zero hb hM)).mul (hG.zero hM hi (D - M))).const_mul (pref / 2)
    simpa [Function.comp_def] using h
  · have h := (hB_mul_tendsto hb hM (hG.growth hM hi (D - M))).const_mul (pref / 2)
    simpa using h

/-! ### The three brackets -/

theorem strip_im {om : ℂ} (hr : om.re ≠ 0) {E : ℝ} (h : |om.im| < E) (p d : ℝ) : (R0 om p (E : ℂ) (d : ℂ)).im ≠ 0 := by
  rw [R0_im om p (by simp) (by simp), Complex.ofReal_re]
  have := abs_lt.1 h
  exact mul_ne_zero (mul_ne_zero two_ne_zero hr) (by linarith)

theorem strip_im_neg {om : ℂ} (hr : om.re ≠ 0) {E : ℝ} (h : |om.im| < E) (p d : ℝ) : (R0 (-om) p (E : ℂ) (d : ℂ)).im ≠ 0 :=
  strip_im (by simpa using hr) (by simpa using h) p d

/-- `1/(R+2pq)`, `1/(R-2pq)`. -/
noncomputable def RP (q om p E d : ℂ) : ℂ := (R0 om p E d + 2 * q * p)⁻¹
noncomputable def RM (q om p E d : ℂ) : ℂ := (R0 om p E d - 2 * q * p)⁻¹

theorem bracket_scalar {om : ℂ} (hr : om.re ≠ 0) (p : ℝ) :
    Bracket om (fun q E d => TL q om p E d + TL q (-om) p E d)
      (fun q E d => 2 * p * (RP q om p E d + RM q om p E d) + 2 * p * (RP q (-om) p E d + RM q (-om) p E d))
      (fun q E d => 2 * Complex.I * om * (RP q om p E d - RM q om p E d) + 2 * Complex.I * (-om) * (RP q (-om) p E d - RM q (-om) p E d))
      (fun q E d => (RP q om p E d - RM q om p E d) + (RP q (-om) p E d - RM q (-om) p E d)) where
  path := by
    intro q E d q' E' d' t hq hE hd hi
    have h1 := TL_path hq hE hd (strip_im hr hi p (d t))
    have h2 := TL_path hq hE hd (strip_im_neg hr hi p (d t))
    refine (h1.add h2).congr_deriv ?_
    simp only [RP, RM]; ring
  zero := by
    intro M hM hi d
    have h1 := TL_tendsto_zero hr hi p d
    have h2 := TL_tendsto_zero (om := -om) (by simpa using hr) (by simpa using hi) p d
    simpa using h1.add h2
  growth := by
    intro M hM hi d
    have h1 := isBigO_TL hM.le hr hi p d
    have h2 := isBigO_TL (om := -om) hM.le (by simpa using hr) (by simpa using hi) p d
    exact (h1.add h2).trans isBigO_pow13

theorem bracket_l {om : ℂ} (hr : om.re ≠ 0) (p : ℝ) :
    Bracket om (fun q E d => PF om p E d ^ 2 * TL q om p E d + PF (-om) p E d ^ 2 * TL q (-om) p E d - 8 * q * p * (om ^ 2 + p ^ 2 + d))
      (fun q E d => PF om p E d ^ 2 * (2 * p * (RP q om p E d + RM q om p E d)) + PF (-om) p E d ^ 2 * (2 * p * (RP q (-om) p E d + RM q (-om) p E d))
        - 8 * p * (om ^ 2 + p ^ 2 + d))
      (fun q E d => 2 * PF om p E d * (2 * Complex.I * om + 2 * Complex.I * p ^ 2 * om⁻¹) * TL q om p E d
        + PF om p E d ^ 2 * (2 * Complex.I * om * (RP q om p E d - RM q om p E d))
        + 2 * PF (-om) p E d * (2 * Complex.I * (-om) + 2 * Complex.I * p ^ 2 * (-om)⁻¹) * TL q (-om) p E d
        + PF (-om) p E d ^ 2 * (2 * Complex.I * (-om) * (RP q (-om) p E d - RM q (-om) p E d)))
      (fun q E d => 2 * PF om p E d * TL q om p E d + PF om p E d ^ 2 * (RP q om p E d - RM q om p E d)
        + 2 * PF (-om) p E d * TL q (-om) p E d + PF (-om) p E d ^ 2 * (RP q (-om) p E d - RM q (-om) p E d) - 8 * q * p) where
  path := by
    intro q E d q' E' d' t hq hE hd hi
    have h1 := TL_path hq hE hd (strip_im hr hi p (d t))
    have h2 := TL_path hq hE hd (strip_im_neg hr hi p (d t))
    have g1 := PF_path hE hd om p
    have g2 := PF_path hE hd (-om) p
    have g3 := (hq.ofReal_comp.const_mul (8 * (p : ℂ))).mul (hd.ofReal_comp.const_add (om ^ 2 + (p : ℂ) ^ 2))
    refine (((((g1.mul g1).mul h1).add ((g2.mul g2).mul h2)).sub g3).congr_of_eventuallyEq (Eventually.of_forall fun x => ?_)).congr_deriv ?_
    · simp only [Pi.mul_apply, Pi.add_apply, Pi.sub_apply]; ring
    · simp only [RP, RM, Pi.mul_apply]; ring
  zero := by
    intro M hM hi d
    have h1 := TL_tendsto_zero hr hi p d
    have h2 := TL_tendsto_zero (om := -om) (by simpa using hr) (by simpa using hi) p d
    have hE : Tendsto (fun q : ℝ => (eM q M : ℂ)) (𝓝[>] 0) (𝓝 (Real.sqrt M : ℂ)) :=
      (Complex.continuous_ofReal.tendsto _).comp eM_tendsto_zero
    have hP : ∀ w : ℂ, Tendsto (fun q : ℝ => PF w p (eM q M) d) (𝓝[>] 0) (𝓝 (PF w p (Real.sqrt M) d)) := by
      intro w
      have : Continuous fun e : ℂ => PF w p e d := by unfold PF; fun_prop
      exact (this.tendsto _).comp hE
    have h3 : Tendsto (fun q : ℝ => 8 * (q : ℂ) * p * (om ^ 2 + p ^ 2 + d)) (𝓝[>] 0) (𝓝 0) := by
      have : Continuous fun q : ℝ => 8 * (q : ℂ) * p * (om ^ 2 + p ^ 2 + d) := by fun_prop
      have h := this.tendsto 0
      simp only [Complex.ofReal_zero, mul_zero, zero_mul] at h
      exact h.mono_left nhdsWithin_le_nhds
    simpa using ((((hP om).pow 2).mul h1).add (((hP (-om)).pow 2).mul h2)).sub h3
  growth := by
    intro M hM hi d
    have h1 := isBigO_TL hM.le hr hi p d
    have h2 := isBigO_TL (om := -om) hM.le (by simpa using hr) (by simpa using hi) p d
    have hP := fun w => isBigO_PF hM.le w p d
    have h3 : (fun q : ℝ => 8 * (q : ℂ) * p * (om ^ 2 + p ^ 2 + d)) =O[atTop] (fun q : ℝ => q ^ 1) :=
      (isBigO_q.const_mul_left (8 * (p : ℂ) * (om ^ 2 + p ^ 2 + d))).congr_left fun q => by ring
    have k1 := (((hP om).mul (hP om)).mul h1).congr_right (g₂ := fun q : ℝ => q ^ 3) (fun q => by ring)
    have k2 := (((hP (-om)).mul (hP (-om))).mul h2).congr_right (g₂ := fun q : ℝ => q ^ 3) (fun q => by ring)
    refine ((k1.add k2).sub (h3.trans isBigO_pow13)).congr_left fun q => ?_
    ring

theorem bracket_t {om : ℂ} (hr : om.re ≠ 0) (p : ℝ) :
    Bracket om (fun q E d => (R0 om p E d ^ 2 - (2 * q * p) ^ 2) * TL q om p E d + (R0 (-om) p E d ^ 2 - (2 * q * p) ^ 2) * TL q (-om) p E d - 8 * q * p * (om ^ 2 + p ^ 2 + d))
      (fun q E d => -8 * q * p ^ 2 * (TL q om p E d + TL q (-om) p E d))
      (fun q E d => 2 * R0 om p E d * (2 * Complex.I * om) * TL q om p E d + 2 * R0 (-om) p E d * (2 * Complex.I * (-om)) * TL q (-om) p E d)
      (fun q E d => 2 * (R0 om p E d * TL q om p E d + R0 (-om) p E d * TL q (-om) p E d) - 16 * q * p) where
  path := by
    intro q E d q' E' d' t hq hE hd hi
    have h1 := TL_path hq hE hd (strip_im hr hi p (d t))
    have h2 := TL_path hq hE hd (strip_im_neg hr hi p (d t))
    have g1 := R0_path hE hd om p
    have g2 := R0_path hE hd (-om) p
    have gq := hq.ofReal_comp.const_mul (2 * (p : ℂ))
    have g3 := (hq.ofReal_comp.const_mul (8 * (p : ℂ))).mul (hd.ofReal_comp.const_add (om ^ 2 + (p : ℂ) ^ 2))
    have key : ∀ {w : ℂ}, (R0 w p (E t) (d t)).im ≠ 0 →
        (R0 w p (E t) (d t) + 2 * (q t) * p ≠ 0 ∧ R0 w p (E t) (d t) - 2 * (q t) * p ≠ 0) := by
      intro w hw
      constructor
      · have := quot_num_ne hw (2 * q t * p); push_cast at this; rwa [add_comm]
      · have := quot_num_ne hw (-(2 * q t * p)); push_cast at this; rwa [sub_eq_neg_add]
    obtain ⟨n1, n2⟩ := key (strip_im hr hi p (d t))
    obtain ⟨n3, n4⟩ := key (strip_im_neg hr hi p (d t))
    have hs : R0 (-om) p (E t) (d t) = 2 * (om ^ 2 + p ^ 2 + d t) - R0 om p (E t) (d t) := by simp only [R0]; ring
    have m1 : (R0 om p (E t) (d t) ^ 2 - (2 * (q t) * p) ^ 2) * (R0 om p (E t) (d t) + 2 * (q t) * p)⁻¹ = R0 om p (E t) (d t) - 2 * (q t) * p := by
      field_simp; ring
    have m2 : (R0 om p (E t) (d t) ^ 2 - (2 * (q t) * p) ^ 2) * (R0 om p (E t) (d t) - 2 * (q t) * p)⁻¹ = R0 om p (E t) (d t) + 2 * (q t) * p := by
      field_simp; ring
    have m3 : (R0 (-om) p (E t) (d t) ^ 2 - (2 * (q t) * p) ^ 2) * (R0 (-om) p (E t) (d t) + 2 * (q t) * p)⁻¹ = R0 (-om) p (E t) (d t) - 2 * (q t) * p := by
      field_simp; ring
    have m4 : (R0 (-om) p (E t) (d t) ^ 2 - (2 * (q t) * p) ^ 2) * (R0 (-om) p (E t) (d t) - 2 * (q t) * p)⁻¹ = R0 (-om) p (E t) (d t) + 2 * (q t) * p := by
      field_simp; ring
    refine ((((((g1.mul g1).sub (gq.mul gq)).mul h1).add (((g2.mul g2).sub (gq.mul gq)).mul h2)).sub g3).congr_of_eventuallyEq
      (Eventually.of_forall fun x => ?_)).congr_deriv ?_
    · simp only [Pi.mul_apply, Pi.add_apply, Pi.sub_apply]; ring
    · simp only [Pi.mul_apply, Pi.sub_apply]
      linear_combination (q' * 2 * p + E' * (2 * Complex.I * om) + d') * m1 + (q' * 2 * p - E' * (2 * Complex.I * om) - d') * m2
        + (q' * 2 * p - E' * (2 * Complex.I * om) + d') * m3 + (q' * 2 * p + E' * (2 * Complex.I * om) - d') * m4 + 4 * p * q' * hs
  zero := by
    intro M hM hi d
    have h1 := TL_tendsto_zero hr hi p d
    have h2 := TL_tendsto_zero (om := -om) (by simpa using hr) (by simpa using hi) p d
    have hE : Tendsto (fun q : ℝ => (eM q M : ℂ)) (𝓝[>] 0) (𝓝 (Real.sqrt M : ℂ)) :=
      (Complex.continuous_ofReal.tendsto _).comp eM_tendsto_zero
    have hq0 : Tendsto (fun q : ℝ => (q : ℂ)) (𝓝[>] 0) (𝓝 0) := by
      have h := Complex.continuous_ofReal.tendsto 0
      simp only [Complex.ofReal_zero] at h
      exact h.mono_left nhdsWithin_le_nhds
    have hP : ∀ w : ℂ, Tendsto (fun q : ℝ => R0 w p (eM q M) d ^ 2 - (2 * (q : ℂ) * p) ^ 2) (𝓝[>] 0) (𝓝 (R0 w p (Real.sqrt M) d ^ 2 - (2 * (0 : ℂ) * p) ^ 2)) := by
      intro w
      have c : Continuous fun e : ℂ => R0 w p e d := by unfold R0; fun_prop
      exact (((c.tendsto _).comp hE).pow 2).sub (((hq0.const_mul 2).mul_const (p : ℂ)).pow 2)
    have h3 : Tendsto (fun q : ℝ => 8 * (q : ℂ) * p * (om ^ 2 + p ^ 2 + d)) (𝓝[>] 0) (𝓝 0) := by
      simpa using ((hq0.const_mul 8).mul_const (p : ℂ)).mul_const (om ^ 2 + (p : ℂ) ^ 2 + d)
    simpa using (((hP om).mul h1).add ((hP (-om)).mul h2)).sub h3
  growth := by
    intro M hM hi d
    have h1 := isBigO_TL hM.le hr hi p d
    have h2 := isBigO_TL (om := -om) hM.le (by simpa using hr) (by simpa using hi) p d
    have hP := fun w => isBigO_R0 hM.le w p d
    have h3 : (fun q : ℝ => 8 * (q : ℂ) * p * (om ^ 2 + p ^ 2 + d)) =O[atTop] (fun q : ℝ => q ^ 1) :=
      (isBigO_q.const_mul_left (8 * (p : ℂ) * (om ^ 2 + p ^ 2 + d))).congr_left fun q => by ring
    have hq2 : (fun q : ℝ => (2 * (q : ℂ) * p)) =O[atTop] (fun q : ℝ => q ^ 1) :=
      (isBigO_q.const_mul_left (2 * (p : ℂ))).congr_left fun q => by ring
    have k1 := ((((hP om).mul (hP om)).sub (hq2.mul hq2)).mul h1).congr_right (g₂ := fun q : ℝ => q ^ 3) (fun q => by ring)
    have k2 := ((((hP (-om)).mul (hP (-om))).sub (hq2.mul hq2)).mul h2).congr_right (g₂ := fun q : ℝ => q ^ 3) (fun q => by ring)
    refine ((k1.add k2).sub (h3.trans isBigO_pow13)).congr_left fun q => ?_
    ring

/-! ### The integrands, general momentum and frequency -/

theorem e2_strip {om : ℂ} {m2 : ℝ} (h : |om.im| ≤ |m2|) {q : ℝ} (hq : 0 < q) : |om.im| < energy q m2 := by
  refine h.trans_lt ?_
  rw [show energy q m2 = Real.sqrt (m2 * m2 + q * q) by simp [energy, energy_squared]]
  exact Real.lt_sqrt_of_sq_lt (by rw [sq_abs]; nlinarith [mul_pos hq hq])

/-- **C39**: `d_i_m_m_i` is an integrand for the derivative of the integral of `i_m_m_i` with respect to the first mass squared. -/
theorem C39_d_i_m_m_i {om : ℂ} {p m2 M beta : ℝ} (hr : om.re ≠ 0) (hb : 0 < beta) (hM : 0 < M) (hp : p ≠ 0)
    (hi : |om.im| < Real.sqrt M) (hi2 : |om.im| ≤ |m2|) :
    Spec.IsMassDerivative (fun q M => thermal.i_m_m_i q om p (Real.sqrt M) m2 beta)
      (fun q => thermal.d_i_m_m_i q om p (Real.sqrt M) m2 beta) M := by
  have hp' : (p : ℂ) ≠ 0 := by exact_mod_cast hp
  have hpi : (PI2 : ℂ) ≠ 0 := by rw [pi2_cast]; exact pow_ne_zero 2 (by exact_mod_cast Real.pi_ne_zero)
  refine (bracket_scalar hr p).massDeriv (D := m2 * m2) hb hM hi (e2 := fun q => energy q m2) (h2 := fun q => (hB beta (energy q m2) : ℂ))
    (fun q hq => e2_strip hi2 hq) (1 / (16 * PI2 * p)) ?_ ?_
  · intro q hq M' hM'
    simp only [thermal.i_m_m_i, tlog_eq, toC_real, toC_complex, ofR_complex, eM_eq hM'.le, hB, Real.mul_self_sqrt hM'.le, neg_sub, Complex.ofReal_sub]
    push_cast
    field_simp
  · intro q hq
    simp only [thermal.d_i_m_m_i, r_0_eq, toC_real, toC_complex, ofR_complex, eM_eq hM.le, hB, Real.mul_self_sqrt hM.le, neg_sub, RP, RM, Complex.ofReal_sub]
    push_cast
    rw [show (2 * (q : ℂ) * p) = q * p * 2 by ring]
    generalize (R0 om p (eM q M) (m2 * m2 - M) + q * p * 2)⁻¹ = a1
    generalize (R0 om p (eM q M) (m2 * m2 - M) - q * p * 2)⁻¹ = a2
    generalize (R0 (-om) p (eM q M) (m2 * m2 - M) + q * p * 2)⁻¹ = a3
    generalize (R0 (-om) p (eM q M) (m2 * m2 - M) - q * p * 2)⁻¹ = a4
    generalize (R0 om p (energy q m2 : ℝ) (M - m2 * m2) + q * p * 2)⁻¹ = a5
    generalize (R0 om p (energy q m2 : ℝ) (M - m2 * m2) - q * p * 2)⁻¹ = a6
    generalize (R0 (-om) p (energy q m2 : ℝ) (M - m2 * m2) + q * p * 2)⁻¹ = a7
    generalize (R0 (-om) p (energy q m2 : ℝ) (M - m2 * m2) - q * p * 2)⁻¹ = a8
    generalize ((bose_distribution_zero_chempot (eM q M) beta : ℝ) : ℂ) / (eM q M : ℝ) = h1
    generalize ((bose_distribution_zero_chempot (energy q m2) beta : ℝ) : ℂ) / (energy q m2 : ℝ) = h2
    field_simp
    ring

/-- **C39**: `d_i_m_m_l_i`. -/
theorem C39_d_i_m_m_l_i {om : ℂ} {p m2 M beta : ℝ} (hr : om.re ≠ 0) (hb : 0 < beta) (hM : 0 < M) (hp : p ≠ 0)
    (hi : |om.im| < Real.sqrt M) (hi2 : |om.im| ≤ |m2|) :
    Spec.IsMassDerivative (fun q M => thermal.i_m_m_l_i q om p (Real.sqrt M) m2 beta)
      (fun q => thermal.d_i_m_m_l_i q om p (Real.sqrt M) m2 beta) M := by
  have hp' : (p : ℂ) ≠ 0 := by exact_mod_cast hp
  have ho : om ≠ 0 := fun h => hr (by simp [h])
  have hpi : (PI2 : ℂ) ≠ 0 := by rw [pi2_cast]; exact pow_ne_zero 2 (by exact_mod_cast Real.pi_ne_zero)
  refine (bracket_l hr p).massDeriv (D := m2 * m2) hb hM hi (e2 := fun q => energy q m2) (h2 := fun q => (hB beta (energy q m2) : ℂ))
    (fun q hq => e2_strip hi2 hq) (om ^ 2 * (64 * PI2 * p ^ 3 * (om ^ 2 + p ^ 2))⁻¹) ?_ ?_
  · intro q hq M' hM'
    simp only [thermal.i_m_m_l_i, tlog_l_eq, toC_real, toC_complex, ofR_complex, eM_eq hM'.le, hB, Real.mul_self_sqrt hM'.le, neg_sub, Complex.ofReal_sub]
    push_cast
    ring
  · intro q hq
    simp only [thermal.d_i_m_m_l_i, r_0_eq, tlog_eq, toC_real, toC_complex, ofR_complex, eM_eq hM.le, hB, Real.mul_self_sqrt hM.le, neg_sub, RP, RM, Complex.ofReal_sub]
    push_cast
    have e1 : ∀ e d : ℂ, R0 om p e d + e * (om⁻¹ * 2 * I * (p * p)) = PF om p e d := fun e d => by simp only [R0, PF, I]; ring
    have e2 : ∀ e d : ℂ, R0 (-om) p e d - e * (om⁻¹ * 2 * I * (p * p)) = PF (-om) p e d := fun e d => by simp only [R0, PF, I, inv_neg]; ring
    simp only [e1, e2]
    rw [show (2 * (q : ℂ) * p) = 2 * p * q by ring]
    generalize (R0 om p (eM q M) (m2 * m2 - M) + 2 * p * q)⁻¹ = a1
    generalize (R0 om p (eM q M) (m2 * m2 - M) - 2 * p * q)⁻¹ = a2
    generalize (R0 (-om) p (eM q M) (m2 * m2 - M) + 2 * p * q)⁻¹ = a3
    generalize (R0 (-om) p (eM q M) (m2 * m2 - M) - 2 * p * q)⁻¹ = a4
    generalize (R0 om p (energy q m2 : ℝ) (M - m2 * m2) + 2 * p * q)⁻¹ = a5
    generalize (R0 om p (energy q m2 : ℝ) (M - m2 * m2) - 2 * p * q)⁻¹ = a6
    generalize (R0 (-om) p (energy q m2 : ℝ) (M - m2 * m2) + 2 * p * q)⁻¹ = a7
    generalize (R0 (-om) p (energy q m2 : ℝ) (M - m2 * m2) - 2 * p * q)⁻¹ = a8
    generalize TL q om p (eM q M) (m2 * m2 - M) = L1
    generalize TL q (-om) p (eM q M) (m2 * m2 - M) = L2
    generalize TL q om p (energy q m2 : ℝ) (M - m2 * m2) = L3
    generalize TL q (-om) p (energy q m2 : ℝ) (M - m2 * m2) = L4
    generalize PF om p (eM q M) (m2 * m2 - M) = P1
    generalize PF (-om) p (eM q M) (m2 * m2 - M) = P2
    generalize PF om p (energy q m2 : ℝ) (M - m2 * m2) = P3
    generalize PF (-om) p (energy q m2 : ℝ) (M - m2 * m2) = P4
    generalize ((bose_distribution_zero_chempot (eM q M) beta : ℝ) : ℂ) / (eM q M : ℝ) = h1
    generalize ((bose_distribution_zero_chempot (energy q m2) beta : ℝ) : ℂ) / (energy q m2 : ℝ) = h2
    rw [show ((om * om + (p : ℂ) * p) * (p * p) * 64 * PI2) = 64 * PI2 * p ^ 2 * (om ^ 2 + p ^ 2) by ring,
      show (64 * (PI2 : ℂ) * (p : ℂ) ^ 3 * (om ^ 2 + (p : ℂ) ^ 2))⁻¹ = (64 * (PI2 : ℂ) * (p : ℂ) ^ 2 * (om ^ 2 + (p : ℂ) ^ 2))⁻¹ * (p : ℂ)⁻¹ by rw [← mul_inv]; ring]
    generalize (64 * (PI2 : ℂ) * p ^ 2 * (om ^ 2 + p ^ 2))⁻¹ = c
    field_simp
    ring

/-- **C39**: `d_i_m_m_t_i`. -/
theorem C39_d_i_m_m_t_i {om : ℂ} {p m2 M beta : ℝ} (hr : om.re ≠ 0) (hb : 0 < beta) (hM : 0 < M) (hp : p ≠ 0)
    (hi : |om.im| < Real.sqrt M) (hi2 : |om.im| ≤ |m2|) :
    Spec.IsMassDerivative (fun q M => thermal.i_m_m_t_i q om p (Real.sqrt M) m2 beta)
      (fun q => thermal.d_i_m_m_t_i q om p (Real.sqrt M) m2 beta) M := by
  have hp' : (p : ℂ) ≠ 0 := by exact_mod_cast hp
  have ho : om ≠ 0 := fun h => hr (by simp [h])
  have hpi : (PI2 : ℂ) ≠ 0 := by rw [pi2_cast]; exact pow_ne_zero 2 (by exact_mod_cast Real.pi_ne_zero)
  refine (bracket_t hr p).massDeriv (D := m2 * m2) hb hM hi (e2 := fun q => energy q m2) (h2 := fun q => (hB beta (energy q m2) : ℂ))
    (fun q hq => e2_strip hi2 hq) (-(128 * (PI2 : ℂ) * (p : ℂ) ^ 3)⁻¹) ?_ ?_
  · intro q hq M' hM'
    simp only [thermal.i_m_m_t_i, tlog_t_eq, toC_real, toC_complex, ofR_complex, eM_eq hM'.le, hB, Real.mul_self_sqrt hM'.le, neg_sub, Complex.ofReal_sub]
    push_cast
    ring
  · intro q hq
    simp only [thermal.d_i_m_m_t_i, r_0_eq, tlog_eq, toC_real, toC_complex, ofR_complex, eM_eq hM.le, hB, Real.mul_self_sqrt hM.le, neg_sub, RP, RM, Complex.ofReal_sub, Complex.ofReal_div, Complex.ofReal_neg, neg_div]
    push_cast
    generalize TL q om p (eM q M) (m2 * m2 - M) = L1
    generalize TL q (-om) p (eM q M) (m2 * m2 - M) = L2
    generalize TL q om p (energy q m2 : ℝ) (M - m2 * m2) = L3
    generalize TL q (-om) p (energy q m2 : ℝ) (M - m2 * m2) = L4
    generalize R0 om p (eM q M) (m2 * m2 - M) = P1
    generalize R0 (-om) p (eM q M) (m2 * m2 - M) = P2
    generalize R0 om p (energy q m2 : ℝ) (M - m2 * m2) = P3
    generalize R0 (-om) p (energy q m2 : ℝ) (M - m2 * m2) = P4
    generalize ((bose_distribution_zero_chempot (eM q M) beta : ℝ) : ℂ) / (eM q M : ℝ) = h1
    generalize ((bose_distribution_zero_chempot (energy q m2) beta : ℝ) : ℂ) / (energy q m2 : ℝ) = h2
    field_simp
    ring

end Qcd
