import Verif.Lemmas.HtlBose
import Verif.Lemmas.DominationFull

/-! # The logarithms of a gluon loop at large loop momentum

For a line of energy `e` and mass difference `d` the logarithms and denominators converge, after division by the appropriate power of
the loop momentum, to quantities which do not depend on the masses. -/

set_option linter.unusedSimpArgs false

namespace Qcd
open MeasureTheory Filter Topology Set

variable {om p : ℝ}

theorem TL_htl_d (ho : om ≠ 0) (hp : p ≠ 0) {q e : ℝ} (hq : 0 < q) (he : 0 < e) (d : ℝ) :
    TL q om p e d = (p * (q / e) : ℝ) * htlK om p (q / e) ((om ^ 2 + p ^ 2 + d) / (2 * e)) := by
  have he' : (e : ℂ) ≠ 0 := Complex.ofReal_ne_zero.2 he.ne'
  have hb : ((2 * p * q : ℝ) : ℂ) ≠ 0 := Complex.ofReal_ne_zero.2 (by positivity)
  have hD : ∀ z : ℝ, R0 om p e d + ((2 * p * q : ℝ) : ℂ) * z = (2 * e) * htlD om p (q / e) ((om ^ 2 + p ^ 2 + d) / (2 * e)) z := fun z => by
    simp only [R0, htlD]
    push_cast
    field_simp
    ring
  have hne : ∀ z ∈ Icc (-1 : ℝ) 1, R0 om p e d + ((2 * p * q : ℝ) : ℂ) * z ≠ 0 := fun z _ => by
    rw [hD]
    exact mul_ne_zero (mul_ne_zero two_ne_zero he') (htlD_ne ho _ _ _ _)
  have hI := int_inv hb hne
  have e1 : TL q om p e d = ((2 * p * q : ℝ) : ℂ) * ∫ z in (-1 : ℝ)..1, (R0 om p e d + ((2 * p * q : ℝ) : ℂ) * z)⁻¹ := by
    rw [hI, TL]
    field_simp
    congr 2 <;> push_cast <;> ring
  rw [e1]
  simp only [hD, mul_inv]
  rw [intervalIntegral.integral_const_mul, htlK]
  push_cast
  field_simp

theorem invq_tendsto : Tendsto (fun q : ℝ => (q : ℂ)⁻¹) atTop (𝓝 0) := by
  have := (Complex.continuous_ofReal.tendsto _).comp (tendsto_inv_atTop_zero (𝕜 := ℝ))
  simpa [Function.comp_def] using this

variable {e : ℝ → ℝ}

theorem Line.eta (h : Line e) : Tendsto (fun q : ℝ => ((e q : ℝ) : ℂ) / q) atTop (𝓝 1) := by
  have := (Complex.continuous_ofReal.tendsto _).comp h.lim
  simpa [Function.comp_def] using this

theorem Line.nu (h : Line e) : Tendsto (fun q : ℝ => (q : ℂ) * ((e q : ℝ) : ℂ)⁻¹) atTop (𝓝 1) := by
  have := h.eta.inv₀ one_ne_zero
  simpa [div_eq_mul_inv] using this

theorem Line.v (h : Line e) : Tendsto (fun q : ℝ => q / e q) atTop (𝓝 1) := by
  have := h.lim.inv₀ one_ne_zero
  simpa using this

theorem Line.inv (h : Line e) : Tendsto (fun q : ℝ => (e q)⁻¹) atTop (𝓝 0) := by
  refine Tendsto.inv_tendsto_atTop (tendsto_atTop_mono' _ ?_ tendsto_id)
  filter_upwards [eventually_gt_atTop 0] with q hq
  exact h.le q hq

theorem Line.w (h : Line e) (a : ℝ) : Tendsto (fun q : ℝ => a / (2 * e q)) atTop (𝓝 0) := by
  have := h.inv.const_mul (a / 2)
  rw [mul_zero] at this
  refine this.congr fun q => ?_
  rw [div_mul_eq_mul_div, div_eq_mul_inv, div_eq_mul_inv, mul_inv]
  ring

/-- The logarithm converges. -/
theorem Line.tl (h : Line e) (ho : om ≠ 0) (hp : p ≠ 0) (d : ℝ) :
    Tendsto (fun q : ℝ => TL q (om : ℂ) p ((e q : ℝ) : ℂ) (d : ℂ)) atTop (𝓝 (p * htlK om p 1 0)) := by
  have h1 := htlK_tendsto (p := p) ho h.v (h.w (om ^ 2 + p ^ 2 + d))
  have h2 := ((Complex.continuous_ofReal.tendsto _).comp (h.v.const_mul p)).mul h1
  rw [mul_one] at h2
  refine h2.congr' ?_
  filter_upwards [eventually_gt_atTop 0] with q hq
  rw [TL_htl_d ho hp hq (hq.trans_le (h.le q hq))]
  rfl

/-- The sum of the logarithms at opposite frequencies decreases like the inverse of the loop momentum. -/
theorem Line.tlS (h : Line e) (ho : om ≠ 0) (hp : p ≠ 0) (d : ℝ) :
    Tendsto (fun q : ℝ => (q : ℂ) * (TL q (om : ℂ) p ((e q : ℝ) : ℂ) (d : ℂ) + TL q ((-om : ℝ) : ℂ) p ((e q : ℝ) : ℂ) (d : ℂ))) atTop
      (𝓝 (2 * p * (om ^ 2 + p ^ 2 + d) / (om ^ 2 + p ^ 2))) := by
  have h1 := htlJ_tendsto (p := p) ho h.v (h.w (om ^ 2 + p ^ 2 + d))
  have hv := (Complex.continuous_ofReal.tendsto _).comp h.v
  have h2 := ((hv.pow 2).mul h1).const_mul (-(p * (om ^ 2 + p ^ 2 + d)) : ℂ)
  have hs : ((om : ℂ) ^ 2 + p ^ 2) ≠ 0 := by
    have : (0 : ℝ) < om ^ 2 + p ^ 2 := by positivity
    exact_mod_cast this.ne'
  have h3 : (-(p * (om ^ 2 + p ^ 2 + d)) : ℂ) * (((1 : ℝ) : ℂ) ^ 2 * htlJ om p 1 0) = 2 * p * (om ^ 2 + p ^ 2 + d) / (om ^ 2 + p ^ 2) := by
    rw [eq_div_iff hs]
    push_cast
    linear_combination (-(p * (om ^ 2 + p ^ 2 + d)) : ℂ) * htlJ_limit ho hp
  rw [h3] at h2
  refine h2.congr' ?_
  filter_upwards [eventually_gt_atTop 0] with q hq
  have he := hq.trans_le (h.le q hq)
  have he' : ((e q : ℝ) : ℂ) ≠ 0 := Complex.ofReal_ne_zero.2 he.ne'
  rw [TL_htl_d ho hp hq he, TL_htl_d (neg_ne_zero.2 ho) hp hq he, htlK_neg, neg_sq]
  have h4 := htlK_sub ho p (q / e q) ((om ^ 2 + p ^ 2 + d) / (2 * e q))
  generalize htlK om p (q / e q) ((om ^ 2 + p ^ 2 + d) / (2 * e q)) = K1 at *
  generalize htlK om p (q / e q) (-((om ^ 2 + p ^ 2 + d) / (2 * e q))) = K2 at *
  have h5 : K1 = K2 + -(2 * (((om ^ 2 + p ^ 2 + d) / (2 * e q) : ℝ) : ℂ)) * htlJ om p (q / e q) ((om ^ 2 + p ^ 2 + d) / (2 * e q)) := by
    rw [← h4]; ring
  rw [h5]
  simp only [Function.comp]
  generalize htlJ om p (q / e q) ((om ^ 2 + p ^ 2 + d) / (2 * e q)) = J at *
  push_cast
  field_simp
  ring

theorem Line.tlSum (h : Line e) (ho : om ≠ 0) (hp : p ≠ 0) (d : ℝ) :
    Tendsto (fun q : ℝ => TL q (om : ℂ) p ((e q : ℝ) : ℂ) (d : ℂ) + TL q ((-om : ℝ) : ℂ) p ((e q : ℝ) : ℂ) (d : ℂ)) atTop (𝓝 0) := by
  have := invq_tendsto.mul (h.tlS ho hp d)
  rw [zero_mul] at this
  refine this.congr' ?_
  filter_upwards [eventually_gt_atTop 0] with q hq
  have : (q : ℂ) ≠ 0 := Complex.ofReal_ne_zero.2 hq.ne'
  field_simp

theorem Line.r0 (h : Line e) (om p : ℝ) (d : ℝ) :
    Tendsto (fun q : ℝ => R0 (om : ℂ) p ((e q : ℝ) : ℂ) (d : ℂ) / q) atTop (𝓝 (om * (2 * Complex.I))) := by
  have := (invq_tendsto.const_mul (om * om + (p * p + d) : ℂ)).add (h.eta.const_mul (om * (2 * Complex.I)))
  rw [mul_zero, zero_add, mul_one] at this
  refine this.congr fun q => ?_
  simp only [R0]
  ring

theorem Line.pf (h : Line e) (om p : ℝ) (d : ℝ) :
    Tendsto (fun q : ℝ => PF (om : ℂ) p ((e q : ℝ) : ℂ) (d : ℂ) / q) atTop (𝓝 ((om + p * p * (om : ℂ)⁻¹) * (2 * Complex.I))) := by
  have := (invq_tendsto.const_mul (om * om + (p * p + d) : ℂ)).add (h.eta.const_mul ((om + p * p * (om : ℂ)⁻¹) * (2 * Complex.I)))
  rw [mul_zero, zero_add, mul_one] at this
  refine this.congr fun q => ?_
  simp only [PF]
  ring

theorem inv_ne (ho : om ≠ 0) (a : ℝ) : (a * 2 : ℂ) + om * (2 * Complex.I) ≠ 0 := fun h => by
  have := congrArg Complex.im h
  simp at this
  exact ho this

theorem Line.ip (h : Line e) (ho : om ≠ 0) (p : ℝ) (d : ℝ) :
    Tendsto (fun q : ℝ => (q : ℂ) * ((p : ℂ) * q * 2 + R0 (om : ℂ) p ((e q : ℝ) : ℂ) (d : ℂ))⁻¹) atTop (𝓝 ((p * 2 : ℂ) + om * (2 * Complex.I))⁻¹) := by
  refine (((h.r0 om p d).const_add (p * 2 : ℂ)).inv₀ (inv_ne ho p)).congr' ?_
  filter_upwards [eventually_gt_atTop 0] with q hq
  have : (q : ℂ) ≠ 0 := Complex.ofReal_ne_zero.2 hq.ne'
  rw [← div_eq_mul_inv, ← inv_div]
  congr 1
  field_simp

theorem Line.im (h : Line e) (ho : om ≠ 0) (p : ℝ) (d : ℝ) :
    Tendsto (fun q : ℝ => (q : ℂ) * (-((p : ℂ) * q * 2) + R0 (om : ℂ) p ((e q : ℝ) : ℂ) (d : ℂ))⁻¹) atTop (𝓝 (-(p * 2 : ℂ) + om * (2 * Complex.I))⁻¹) := by
  have := h.ip ho (-p) d
  simp only [R0, Complex.ofReal_neg, neg_mul_neg, neg_mul, mul_neg, neg_neg] at this ⊢
  exact this

/-! ### Combinations which appear in the diagrams -/

/-- Longitudinal loops without insertions. -/
theorem Line.legL (h : Line e) (ho : om ≠ 0) (hp : p ≠ 0) (d : ℝ) :
    Tendsto (fun q : ℝ => (TL q (om : ℂ) p ((e q : ℝ) : ℂ) (d : ℂ) * PF (om : ℂ) p ((e q : ℝ) : ℂ) (d : ℂ) * PF (om : ℂ) p ((e q : ℝ) : ℂ) (d : ℂ)
        + TL q ((-om : ℝ) : ℂ) p ((e q : ℝ) : ℂ) (d : ℂ) * PF ((-om : ℝ) : ℂ) p ((e q : ℝ) : ℂ) (d : ℂ) * PF ((-om : ℝ) : ℂ) p ((e q : ℝ) : ℂ) (d : ℂ)
        - q * ((p : ℂ) * 8 * (om * om + p * p + d))) / q) atTop
      (𝓝 ((om * om + p * p + d) * (8 * Complex.I * ((om + p * p * (om : ℂ)⁻¹)) * (p * htlK om p 1 0) - 8 * p * ((om * om + p * p) * (om : ℂ)⁻¹ ^ 2) - 8 * p))) := by
  have hS := h.tlS ho hp d
  have hT := h.tl ho hp d
  have hE := h.eta
  have hs : ((om : ℂ) ^ 2 + p ^ 2) ≠ 0 := by
    have : (0 : ℝ) < om ^ 2 + p ^ 2 := by positivity
    exact_mod_cast this.ne'
  have ho' : (om : ℂ) ≠ 0 := Complex.ofReal_ne_zero.2 ho
  have key := (((hE.mul hT).const_mul ((om * om + p * p + d) * (8 * Complex.I * ((om + p * p * (om : ℂ)⁻¹))))).add
    (hS.mul (((invq_tendsto.const_mul (om * om + p * p + d : ℂ)).sub (hE.const_mul (2 * Complex.I * (om + p * p * (om : ℂ)⁻¹)))).pow 2))).sub_const
      (8 * p * (om * om + p * p + d) : ℂ)
  refine (key.congr' ?_).trans (le_of_eq ?_)
  · filter_upwards [eventually_gt_atTop 0] with q hq
    have : (q : ℂ) ≠ 0 := Complex.ofReal_ne_zero.2 hq.ne'
    simp only [PF]
    generalize TL q ((-om : ℝ) : ℂ) p ((e q : ℝ) : ℂ) (d : ℂ) = T2
    push_cast
    generalize TL q (om : ℂ) p ((e q : ℝ) : ℂ) (d : ℂ) = T1
    generalize ((e q : ℝ) : ℂ) = E
    field_simp
    ring
  · congr 1
    rw [mul_zero, mul_one, one_mul, zero_sub, neg_sq, mul_pow, mul_pow, Complex.I_sq]
    field_simp
    ring

/-- Transverse loops without insertions. -/
theorem Line.legT (h : Line e) (ho : om ≠ 0) (hp : p ≠ 0) (d : ℝ) :
    Tendsto (fun q : ℝ => ((R0 (om : ℂ) p ((e q : ℝ) : ℂ) (d : ℂ) + q * 2 * p) * (R0 (om : ℂ) p ((e q : ℝ) : ℂ) (d : ℂ) - q * 2 * p) * TL q (om : ℂ) p ((e q : ℝ) : ℂ) (d : ℂ)
        + (R0 ((-om : ℝ) : ℂ) p ((e q : ℝ) : ℂ) (d : ℂ) + q * 2 * p) * (R0 ((-om : ℝ) : ℂ) p ((e q : ℝ) : ℂ) (d : ℂ) - q * 2 * p) * TL q ((-om : ℝ) : ℂ) p ((e q : ℝ) : ℂ) (d : ℂ)
        - q * ((p : ℂ) * 8 * (om * om + p * p + d))) / q) atTop
      (𝓝 ((om * om + p * p + d) * (8 * Complex.I * om * (p * htlK om p 1 0) - 16 * p))) := by
  have hS := h.tlS ho hp d
  have hT := h.tl ho hp d
  have hE := h.eta
  have hs : ((om : ℂ) ^ 2 + p ^ 2) ≠ 0 := by
    have : (0 : ℝ) < om ^ 2 + p ^ 2 := by positivity
    exact_mod_cast this.ne'
  have key := (((hE.mul hT).const_mul ((om * om + p * p + d) * (8 * Complex.I * om))).add
    (hS.mul ((((invq_tendsto.const_mul (om * om + p * p + d : ℂ)).sub (hE.const_mul (2 * Complex.I * om))).pow 2).sub_const (4 * (p : ℂ) ^ 2)))).sub_const
      (8 * p * (om * om + p * p + d) : ℂ)
  refine (key.congr' ?_).trans (le_of_eq ?_)
  · filter_upwards [eventually_gt_atTop 0] with q hq
    have : (q : ℂ) ≠ 0 := Complex.ofReal_ne_zero.2 hq.ne'
    simp only [R0]
    generalize TL q ((-om : ℝ) : ℂ) p ((e q : ℝ) : ℂ) (d : ℂ) = T2
    push_cast
    generalize TL q (om : ℂ) p ((e q : ℝ) : ℂ) (d : ℂ) = T1
    generalize ((e q : ℝ) : ℂ) = E
    field_simp
    ring
  · congr 1
    rw [mul_zero, mul_one, one_mul, zero_sub, neg_sq, mul_pow, mul_pow, Complex.I_sq]
    field_simp
    ring

/-- `PF` in the form in which it appears in the derivatives. -/
theorem PF_alt (om : ℝ) (p : ℝ) (E d : ℂ) :
    R0 (om : ℂ) p E d + E * ((p : ℂ) * p * ((om : ℂ)⁻¹ * 2 * Complex.I)) = PF (om : ℂ) p E d ∧
    R0 ((-om : ℝ) : ℂ) p E d - E * ((p : ℂ) * p * ((om : ℂ)⁻¹ * 2 * Complex.I)) = PF ((-om : ℝ) : ℂ) p E d := by
  constructor
  · simp only [R0, PF]; ring
  · simp only [R0, PF]; push_cast; rw [inv_neg]; ring

noncomputable def limP (om p : ℝ) : ℂ := (om + p * p * (om : ℂ)⁻¹) * (2 * Complex.I)
noncomputable def limI (om p : ℝ) : ℂ := ((p * 2 : ℂ) + om * (2 * Complex.I))⁻¹ - (-(p * 2 : ℂ) + om * (2 * Complex.I))⁻¹

noncomputable def limDL (om p : ℝ) : ℂ :=
  8 - (p : ℂ)⁻¹ * 2 * (limP om p * (p * htlK om p 1 0) + limP (-om) p * (p * htlK (-om) p 1 0))
    - (p : ℂ)⁻¹ * (limI om p * (limP om p * limP om p) + limI (-om) p * (limP (-om) p * limP (-om) p))

noncomputable def limDT (om p : ℝ) : ℂ :=
  -(p : ℂ)⁻¹ + (om * (2 * Complex.I) * (p * htlK om p 1 0) + ((-om : ℝ) : ℂ) * (2 * Complex.I) * (p * htlK (-om) p 1 0)) * (p * p * 8 : ℂ)⁻¹

/-- Longitudinal loops with an insertion on one line. -/
theorem Line.legDL (h : Line e) (ho : om ≠ 0) (hp : p ≠ 0) (d : ℝ) :
    Tendsto (fun q : ℝ => (q * 8
        - (p : ℂ)⁻¹ * (PF (om : ℂ) p ((e q : ℝ) : ℂ) (d : ℂ) * TL q (om : ℂ) p ((e q : ℝ) : ℂ) (d : ℂ)
          + PF ((-om : ℝ) : ℂ) p ((e q : ℝ) : ℂ) (d : ℂ) * TL q ((-om : ℝ) : ℂ) p ((e q : ℝ) : ℂ) (d : ℂ)) * 2
        - (p : ℂ)⁻¹ * ((((p : ℂ) * q * 2 + R0 (om : ℂ) p ((e q : ℝ) : ℂ) (d : ℂ))⁻¹ - (-((p : ℂ) * q * 2) + R0 (om : ℂ) p ((e q : ℝ) : ℂ) (d : ℂ))⁻¹)
            * (PF (om : ℂ) p ((e q : ℝ) : ℂ) (d : ℂ) * PF (om : ℂ) p ((e q : ℝ) : ℂ) (d : ℂ))
          + (((p : ℂ) * q * 2 + R0 ((-om : ℝ) : ℂ) p ((e q : ℝ) : ℂ) (d : ℂ))⁻¹ - (-((p : ℂ) * q * 2) + R0 ((-om : ℝ) : ℂ) p ((e q : ℝ) : ℂ) (d : ℂ))⁻¹)
            * (PF ((-om : ℝ) : ℂ) p ((e q : ℝ) : ℂ) (d : ℂ) * PF ((-om : ℝ) : ℂ) p ((e q : ℝ) : ℂ) (d : ℂ)))) / q) atTop (𝓝 (limDL om p)) := by
  have hT := h.tl ho hp d
  have hT' := h.tl (neg_ne_zero.2 ho) hp d
  have ho' := neg_ne_zero.2 ho
  have key := ((((h.pf om p d).mul hT).add ((h.pf (-om) p d).mul hT')).const_mul ((p : ℂ)⁻¹ * 2)).const_sub 8 |>.sub
    (((((h.ip ho p d).sub (h.im ho p d)).mul ((h.pf om p d).mul (h.pf om p d))).add
      (((h.ip ho' p d).sub (h.im ho' p d)).mul ((h.pf (-om) p d).mul (h.pf (-om) p d)))).const_mul (p : ℂ)⁻¹)
  refine key.congr' ?_
  filter_upwards [eventually_gt_atTop 0] with q hq
  have : (q : ℂ) ≠ 0 := Complex.ofReal_ne_zero.2 hq.ne'
  generalize ((p : ℂ) * q * 2 + R0 (om : ℂ) p ((e q : ℝ) : ℂ) (d : ℂ))⁻¹ = x1
  generalize (-((p : ℂ) * q * 2) + R0 (om : ℂ) p ((e q : ℝ) : ℂ) (d : ℂ))⁻¹ = x2
  generalize ((p : ℂ) * q * 2 + R0 ((-om : ℝ) : ℂ) p ((e q : ℝ) : ℂ) (d : ℂ))⁻¹ = x3
  generalize (-((p : ℂ) * q * 2) + R0 ((-om : ℝ) : ℂ) p ((e q : ℝ) : ℂ) (d : ℂ))⁻¹ = x4
  field_simp

/-- Transverse loops with an insertion on one line. -/
theorem Line.legDT (h : Line e) (ho : om ≠ 0) (hp : p ≠ 0) (d : ℝ) :
    Tendsto (fun q : ℝ => (-(q * (p : ℂ)⁻¹) + (R0 (om : ℂ) p ((e q : ℝ) : ℂ) (d : ℂ) * TL q (om : ℂ) p ((e q : ℝ) : ℂ) (d : ℂ)
          + R0 ((-om : ℝ) : ℂ) p ((e q : ℝ) : ℂ) (d : ℂ) * TL q ((-om : ℝ) : ℂ) p ((e q : ℝ) : ℂ) (d : ℂ)) * (p * p * 8 : ℂ)⁻¹) / q) atTop (𝓝 (limDT om p)) := by
  have hT := h.tl ho hp d
  have hT' := h.tl (neg_ne_zero.2 ho) hp d
  have key := ((((h.r0 om p d).mul hT).add ((h.r0 (-om) p d).mul hT')).mul_const (p * p * 8 : ℂ)⁻¹).const_add (-(p : ℂ)⁻¹)
  refine key.congr' ?_
  filter_upwards [eventually_gt_atTop 0] with q hq
  have : (q : ℂ) ≠ 0 := Complex.ofReal_ne_zero.2 hq.ne'
  field_simp

end Qcd
