import Mathlib.Analysis.SpecialFunctions.Integrals.Basic
import Mathlib.Analysis.Complex.RealDeriv
import Verif.Lemmas.Branch
import Verif.Lemmas.Asymptotics
import Verif.Model.Vacuum

/-! C22, C23, C61: the quark loop functions. -/

namespace Qcd
open Filter Topology

/-! ### C23 -/

/-- **C23** (complex): off the negative real axis `f_q` is differentiable and the crossed loop is
`f_q + 2 s f_q'`. -/
theorem C23_complex (s : ℂ) (hs : s ∈ Complex.slitPlane) :
    DifferentiableAt ℂ (gluon.f_q : ℂ → ℂ) s ∧
    gluon.f_q_crossed s = gluon.f_q s + 2 * s * deriv (gluon.f_q : ℂ → ℂ) s := by
  have hs0 := Complex.slitPlane_ne_zero hs
  have hA := slit_a2 hs
  have ha0 : csqrt (s⁻¹ * 4 + 1) ≠ 0 := csqrt_ne_zero (Complex.slitPlane_ne_zero hA)
  have ha1 := a_add_one_ne_zero hs
  have hsq : csqrt (s⁻¹ * 4 + 1) * csqrt (s⁻¹ * 4 + 1) = s⁻¹ * 4 + 1 := csqrt_mul_self _
  have hm1 : csqrt (s⁻¹ * 4 + 1) - 1 ≠ 0 := by
    intro h
    have h1 : csqrt (s⁻¹ * 4 + 1) = 1 := by linear_combination h
    rw [h1] at hsq
    have : s⁻¹ = 0 := by linear_combination -hsq / 4
    exact inv_ne_zero hs0 this
  have hrat := slit_a_ratio hs
  have d0 : HasDerivAt (fun s : ℂ => s⁻¹) (-(s ^ 2)⁻¹) s := hasDerivAt_inv hs0
  have dA : HasDerivAt (fun s : ℂ => s⁻¹ * 4 + 1) (-(s ^ 2)⁻¹ * 4) s :=
    (d0.mul_const 4).add_const 1
  have da : HasDerivAt (fun s : ℂ => csqrt (s⁻¹ * 4 + 1))
      (1 / (2 * csqrt (s⁻¹ * 4 + 1)) * (-(s ^ 2)⁻¹ * 4)) s :=
    HasDerivAt.comp (h₂ := csqrt) (h := fun s : ℂ => s⁻¹ * 4 + 1) s (hasDerivAt_csqrt hA) dA
  have dL := ((da.sub_const 1).div (da.add_const 1) ha1).clog hrat
  have key := ((((((d0.neg.add_const (((1 / 2 : ℝ)) : ℂ)).mul da).mul dL).sub
    (d0.mul_const 2)).add_const ((5 / 6 : ℝ) : ℂ)).mul_const 4).div_const 9
  have hf : HasDerivAt (gluon.f_q : ℂ → ℂ) ((gluon.f_q_crossed s - gluon.f_q s) / (2 * s)) s := by
    have hfun : (gluon.f_q : ℂ → ℂ) = fun x => (((-x⁻¹ + ((1 / 2 : ℝ) : ℂ)) * csqrt (x⁻¹ * 4 + 1)
        * Complex.log ((csqrt (x⁻¹ * 4 + 1) - 1) / (csqrt (x⁻¹ * 4 + 1) + 1)) - x⁻¹ * 2)
        + ((5 / 6 : ℝ) : ℂ)) * 4 / 9 := by
      funext x
      simp [gluon.f_q]
    rw [hfun]
    refine HasDerivAt.congr_deriv key ?_
    · rw [← hfun]
      simp only [gluon.f_q, gluon.f_q_crossed, ofR_complex, ln_complex, sqrt_complex,
        Complex.ofReal_one, Complex.ofReal_ofNat]
      simp only [Pi.mul_apply, Pi.neg_apply, Pi.div_apply]
      set a := csqrt (s⁻¹ * 4 + 1) with hadef
      set L := Complex.log ((a - 1) / (a + 1)) with hL
      have hsinv : s⁻¹ = (a * a - 1) / 4 := by linear_combination -hsq / 4
      have hs' : s = 4 / (a * a - 1) := by
        rw [← inv_inv s, hsinv, inv_div]
      have hne : a * a - 1 ≠ 0 := by
        have : a * a - 1 = (a - 1) * (a + 1) := by ring
        rw [this]; exact mul_ne_zero hm1 ha1
      clear_value L
      rw [hs']
      push_cast
      field_simp
      ring
  refine ⟨hf.differentiableAt, ?_⟩
  rw [hf.deriv]
  field_simp
  ring

/-! ### C61: Feynman-parameter form -/

/-- The one-loop quark bubble subtracted at zero momentum, as an integral over the Feynman parameter:
a specification of `f_q` that shares nothing with the closed form. -/
noncomputable def feynman_fq (s : ℝ) : ℝ :=
  -(4 / 3) * ∫ x in (0 : ℝ)..1, x * (1 - x) * Real.log (1 + x * (1 - x) * s)

/-- The same with one propagator replaced by its mass-crossed version. -/
noncomputable def feynman_fq_crossed (s : ℝ) : ℝ :=
  -(4 / 3) * ∫ x in (0 : ℝ)..1, x * (1 - x) *
    (Real.log (1 + x * (1 - x) * s) + 2 * (x * (1 - x) * s / (1 + x * (1 - x) * s)))

theorem weight_nonneg {x : ℝ} (hx : x ∈ Set.Icc (0 : ℝ) 1) : 0 ≤ x * (1 - x) :=
  mul_nonneg hx.1 (by linarith [hx.2])

/-- Facts about the roots of `1 + x(1-x)s`. -/
theorem root_facts {s : ℝ} (hs : 0 < s) :
    1 < Real.sqrt (s⁻¹ * 4 + 1) ∧
    Real.sqrt (s⁻¹ * 4 + 1) * Real.sqrt (s⁻¹ * 4 + 1) = s⁻¹ * 4 + 1 := by
  have h2 : 0 ≤ s⁻¹ * 4 + 1 := by positivity
  refine ⟨?_, Real.mul_self_sqrt h2⟩
  have : 0 < s⁻¹ := inv_pos.2 hs
  rw [Real.lt_sqrt (by norm_num)]; nlinarith

theorem continuous_log_weight {s : ℝ} (hs : 0 < s) :
    ContinuousOn (fun x : ℝ => x * (1 - x) * Real.log (1 + x * (1 - x) * s)) (Set.Icc 0 1) := by
  apply ContinuousOn.mul (by fun_prop)
  apply ContinuousOn.log (by fun_prop)
  intro x hx
  have := mul_nonneg (weight_nonneg hx) hs.le
  linarith

theorem continuous_ratio_weight {s : ℝ} (hs : 0 < s) :
    ContinuousOn (fun x : ℝ => x * (1 - x) * (x * (1 - x) * s / (1 + x * (1 - x) * s)))
      (Set.Icc 0 1) := by
  apply ContinuousOn.mul (by fun_prop)
  apply ContinuousOn.div (by fun_prop) (by fun_prop)
  intro x hx
  have := mul_nonneg (weight_nonneg hx) hs.le
  linarith

theorem integral_log_weight {s : ℝ} (hs : 0 < s) :
    ∫ x in (0 : ℝ)..1, x * (1 - x) * Real.log (1 + x * (1 - x) * s)
      = -(Real.sqrt (s⁻¹ * 4 + 1) * (1 / 6 - s⁻¹ / 3)
          * Real.log ((Real.sqrt (s⁻¹ * 4 + 1) - 1) / (Real.sqrt (s⁻¹ * 4 + 1) + 1)))
        - (5 / 18 - s⁻¹ * 2 / 3) := by
  obtain ⟨h1, hsq⟩ := root_facts hs
  set a := Real.sqrt (s⁻¹ * 4 + 1)
  have hsinv : s⁻¹ = (a * a - 1) / 4 := by linear_combination -hsq / 4
  have hsa : s * (a * a - 1) = 4 := by
    have : s * s⁻¹ = 1 := mul_inv_cancel₀ hs.ne'
    rw [hsinv] at this; linarith
  set F : ℝ → ℝ := fun x =>
    (x ^ 2 / 2 - x ^ 3 / 3 - (((1 - a) / 2) ^ 2 / 2 - ((1 - a) / 2) ^ 3 / 3))
        * Real.log (x - (1 - a) / 2)
    + (x ^ 2 / 2 - x ^ 3 / 3 - (((1 + a) / 2) ^ 2 / 2 - ((1 + a) / 2) ^ 3 / 3))
        * Real.log ((1 + a) / 2 - x)
    + (x ^ 2 / 2 - x ^ 3 / 3) * Real.log s
    - (x ^ 2 / 2 + x / 2 - (2 * x ^ 3 / 3 + x ^ 2 / 2 + (a * a + 1) / 2 * x) / 3) with hF
  have hderiv : ∀ x ∈ Set.uIcc (0 : ℝ) 1,
      HasDerivAt F (x * (1 - x) * Real.log (1 + x * (1 - x) * s)) x := by
    intro x hx
    rw [Set.uIcc_of_le (by norm_num)] at hx
    have hx0 := hx.1
    have hx1 := hx.2
    have p1 : 0 < x - (1 - a) / 2 := by linarith
    have p2 : 0 < (1 + a) / 2 - x := by linarith
    have hfac : 1 + x * (1 - x) * s = s * ((x - (1 - a) / 2) * ((1 + a) / 2 - x)) := by
      linear_combination -hsa / 4
    rw [hfac, Real.log_mul hs.ne' (by positivity), Real.log_mul p1.ne' p2.ne']
    have dx := hasDerivAt_id x
    have dP : HasDerivAt (fun x : ℝ => x ^ 2 / 2 - x ^ 3 / 3) (x - x ^ 2) x := by
      have := ((hasDerivAt_pow 2 x).div_const 2).sub ((hasDerivAt_pow 3 x).div_const 3)
      refine this.congr_deriv ?_
      norm_num
    have dl1 : HasDerivAt (fun x : ℝ => Real.log (x - (1 - a) / 2)) (1 / (x - (1 - a) / 2)) x :=
      (dx.sub_const _).log p1.ne'
    have dl2 : HasDerivAt (fun x : ℝ => Real.log ((1 + a) / 2 - x)) (-1 / ((1 + a) / 2 - x)) x :=
      (dx.const_sub _).log p2.ne'
    have dQ : HasDerivAt (fun x : ℝ => x ^ 2 / 2 + x / 2
        - (2 * x ^ 3 / 3 + x ^ 2 / 2 + (a * a + 1) / 2 * x) / 3)
        (x + 1 / 2 - (2 * x ^ 2 + x + (a * a + 1) / 2) / 3) x := by
      have := (((hasDerivAt_pow 2 x).div_const 2).add (dx.div_const 2)).sub
        ((((((hasDerivAt_pow 3 x).const_mul 2).div_const 3).add
          ((hasDerivAt_pow 2 x).div_const 2)).add (dx.const_mul ((a * a + 1) / 2))).div_const 3)
      refine this.congr_deriv ?_
      norm_num; ring
    have := ((((dP.sub_const (((1 - a) / 2) ^ 2 / 2 - ((1 - a) / 2) ^ 3 / 3)).mul dl1).add
      ((dP.sub_const (((1 + a) / 2) ^ 2 / 2 - ((1 + a) / 2) ^ 3 / 3)).mul dl2)).add
      (dP.mul_const (Real.log s))).sub dQ
    refine HasDerivAt.congr_deriv this ?_
    have q1 : x * 2 - (1 - a) ≠ 0 := by linarith
    have q2 : 1 + a - x * 2 ≠ 0 := by linarith
    field_simp
    ring
  have hint : IntervalIntegrable (fun x : ℝ => x * (1 - x) * Real.log (1 + x * (1 - x) * s))
      MeasureTheory.volume 0 1 := by
    apply ContinuousOn.intervalIntegrable
    rw [Set.uIcc_of_le (by norm_num)]
    exact continuous_log_weight hs
  rw [intervalIntegral.integral_eq_sub_of_hasDerivAt hderiv hint]
  have e1 : (1 : ℝ) - (1 - a) / 2 = (a + 1) / 2 := by ring
  have e2 : (1 + a) / 2 - 1 = (a - 1) / 2 := by ring
  have e3 : (0 : ℝ) - (1 - a) / 2 = (a - 1) / 2 := by ring
  have e4 : (1 + a) / 2 - 0 = (a + 1) / 2 := by ring
  have hls : Real.log s = -(Real.log ((a + 1) / 2) + Real.log ((a - 1) / 2)) := by
    rw [← Real.log_mul (by linarith) (by linarith), ← Real.log_inv]
    congr 1
    rw [eq_comm, inv_eq_iff_eq_inv, hsinv]; ring
  have hL : Real.log ((a - 1) / (a + 1)) = Real.log ((a - 1) / 2) - Real.log ((a + 1) / 2) := by
    rw [← Real.log_div (by linarith) (by linarith)]
    congr 1
    have : a + 1 ≠ 0 := by linarith
    field_simp
  simp only [hF]
  rw [e1, e2, e3, e4, hls, hL, hsinv]
  ring

theorem integral_ratio_weight {s : ℝ} (hs : 0 < s) :
    ∫ x in (0 : ℝ)..1, x * (1 - x) * (x * (1 - x) * s / (1 + x * (1 - x) * s))
      = 1 / 6 - s⁻¹ - 2 * s⁻¹ * s⁻¹ / Real.sqrt (s⁻¹ * 4 + 1)
          * Real.log ((Real.sqrt (s⁻¹ * 4 + 1) - 1) / (Real.sqrt (s⁻¹ * 4 + 1) + 1)) := by
  obtain ⟨h1, hsq⟩ := root_facts hs
  set a := Real.sqrt (s⁻¹ * 4 + 1)
  have hsinv : s⁻¹ = (a * a - 1) / 4 := by linear_combination -hsq / 4
  have hsa : s * (a * a - 1) = 4 := by
    have : s * s⁻¹ = 1 := mul_inv_cancel₀ hs.ne'
    rw [hsinv] at this; linarith
  have ha : 0 < a := by linarith
  set F : ℝ → ℝ := fun x =>
    (x ^ 2 / 2 - x ^ 3 / 3) - x * s⁻¹
    + s⁻¹ * s⁻¹ / a * (Real.log (x - (1 - a) / 2) - Real.log ((1 + a) / 2 - x)) with hF
  have hderiv : ∀ x ∈ Set.uIcc (0 : ℝ) 1,
      HasDerivAt F (x * (1 - x) * (x * (1 - x) * s / (1 + x * (1 - x) * s))) x := by
    intro x hx
    rw [Set.uIcc_of_le (by norm_num)] at hx
    have hx0 := hx.1
    have hx1 := hx.2
    have p1 : 0 < x - (1 - a) / 2 := by linarith
    have p2 : 0 < (1 + a) / 2 - x := by linarith
    have hfac : 1 + x * (1 - x) * s = s * ((x - (1 - a) / 2) * ((1 + a) / 2 - x)) := by
      linear_combination -hsa / 4
    have hw : x * (1 - x) * s = s * ((x - (1 - a) / 2) * ((1 + a) / 2 - x)) - 1 := by
      linear_combination hfac
    have dx := hasDerivAt_id x
    have dP : HasDerivAt (fun x : ℝ => x ^ 2 / 2 - x ^ 3 / 3) (x - x ^ 2) x := by
      have := ((hasDerivAt_pow 2 x).div_const 2).sub ((hasDerivAt_pow 3 x).div_const 3)
      refine this.congr_deriv ?_
      norm_num
    have dl1 : HasDerivAt (fun x : ℝ => Real.log (x - (1 - a) / 2)) (1 / (x - (1 - a) / 2)) x :=
      (dx.sub_const _).log p1.ne'
    have dl2 : HasDerivAt (fun x : ℝ => Real.log ((1 + a) / 2 - x)) (-1 / ((1 + a) / 2 - x)) x :=
      (dx.const_sub _).log p2.ne'
    have := (dP.sub (dx.mul_const s⁻¹)).add ((dl1.sub dl2).const_mul (s⁻¹ * s⁻¹ / a))
    refine HasDerivAt.congr_deriv this ?_
    have hq : (x - (1 - a) / 2) * ((1 + a) / 2 - x) ≠ 0 := by positivity
    have hwx : x - x ^ 2 = (x - (1 - a) / 2) * ((1 + a) / 2 - x) - s⁻¹ := by
      rw [hsinv]; ring
    have hwx' : x * (1 - x) = (x - (1 - a) / 2) * ((1 + a) / 2 - x) - s⁻¹ := by
      rw [hsinv]; ring
    have hsum : 1 / (x - (1 - a) / 2) - -1 / ((1 + a) / 2 - x)
        = a / ((x - (1 - a) / 2) * ((1 + a) / 2 - x)) := by
      rw [eq_div_iff hq]
      have := p1.ne'
      have := p2.ne'
      have e : (1 / (x - (1 - a) / 2) - -1 / ((1 + a) / 2 - x))
          * ((x - (1 - a) / 2) * ((1 + a) / 2 - x))
          = (1 / (x - (1 - a) / 2) * (x - (1 - a) / 2)) * ((1 + a) / 2 - x)
            + (1 / ((1 + a) / 2 - x) * ((1 + a) / 2 - x)) * (x - (1 - a) / 2) := by ring
      rw [e, one_div_mul_cancel p1.ne', one_div_mul_cancel p2.ne']; ring
    rw [hsum, hfac, hwx, hwx']
    generalize (x - (1 - a) / 2) * ((1 + a) / 2 - x) = W at hq
    have := hs.ne'
    field_simp
    ring
  have hint : IntervalIntegrable
      (fun x : ℝ => x * (1 - x) * (x * (1 - x) * s / (1 + x * (1 - x) * s)))
      MeasureTheory.volume 0 1 := by
    apply ContinuousOn.intervalIntegrable
    rw [Set.uIcc_of_le (by norm_num)]
    exact continuous_ratio_weight hs
  rw [intervalIntegral.integral_eq_sub_of_hasDerivAt hderiv hint]
  have e1 : (1 : ℝ) - (1 - a) / 2 = (a + 1) / 2 := by ring
  have e2 : (1 + a) / 2 - 1 = (a - 1) / 2 := by ring
  have e3 : (0 : ℝ) - (1 - a) / 2 = (a - 1) / 2 := by ring
  have e4 : (1 + a) / 2 - 0 = (a + 1) / 2 := by ring
  have hL : Real.log ((a - 1) / (a + 1)) = Real.log ((a - 1) / 2) - Real.log ((a + 1) / 2) := by
    rw [← Real.log_div (by linarith) (by linarith)]
    congr 1
    have : a + 1 ≠ 0 := by linarith
    field_simp
  simp only [hF]
  rw [e1, e2, e3, e4, hL]
  ring

/-- **C61**: at every `s > 0` the closed form of `f_q` is the Feynman-parameter integral. -/
theorem C61_feynman (s : ℝ) (hs : 0 < s) : gluon.f_q s = feynman_fq s := by
  unfold feynman_fq
  rw [integral_log_weight hs]
  simp only [gluon.f_q, ofR_real, sqrt_real, ln_real]
  ring

/-- **C61** (crossed loop). -/
theorem C61_feynman_crossed (s : ℝ) (hs : 0 < s) :
    gluon.f_q_crossed s = feynman_fq_crossed s := by
  unfold feynman_fq_crossed
  have i1 : IntervalIntegrable (fun x : ℝ => x * (1 - x) * Real.log (1 + x * (1 - x) * s))
      MeasureTheory.volume 0 1 := by
    apply ContinuousOn.intervalIntegrable
    rw [Set.uIcc_of_le (by norm_num)]
    exact continuous_log_weight hs
  have i2 : IntervalIntegrable
      (fun x : ℝ => 2 * (x * (1 - x) * (x * (1 - x) * s / (1 + x * (1 - x) * s))))
      MeasureTheory.volume 0 1 := by
    apply ContinuousOn.intervalIntegrable
    rw [Set.uIcc_of_le (by norm_num)]
    exact (continuous_ratio_weight hs).const_mul 2 |>.congr (fun x _ => by simp)
  have e : ∀ x : ℝ, x * (1 - x) *
      (Real.log (1 + x * (1 - x) * s) + 2 * (x * (1 - x) * s / (1 + x * (1 - x) * s)))
      = x * (1 - x) * Real.log (1 + x * (1 - x) * s)
        + 2 * (x * (1 - x) * (x * (1 - x) * s / (1 + x * (1 - x) * s))) := by intro x; ring
  simp only [e]
  rw [intervalIntegral.integral_add i1 i2, intervalIntegral.integral_const_mul,
    integral_log_weight hs, integral_ratio_weight hs]
  simp only [gluon.f_q_crossed, ofR_real, sqrt_real, ln_real]
  obtain ⟨h1, hsq⟩ := root_facts hs
  set a := Real.sqrt (s⁻¹ * 4 + 1)
  have ha : a ≠ 0 := by linarith
  have hsinv : s⁻¹ = (a * a - 1) / 4 := by linear_combination -hsq / 4
  rw [hsinv]
  field_simp
  ring

/-- **C61** (sign and size): screening, with a linear bound. -/
theorem C61_sign (s : ℝ) (hs : 0 < s) :
    gluon.f_q s < 0 ∧ -s / 12 ≤ gluon.f_q s ∧
    gluon.f_q_crossed s < 0 ∧ -s / 4 ≤ gluon.f_q_crossed s := by
  have hw : ∀ x ∈ Set.Icc (0 : ℝ) 1, x * (1 - x) ≤ 1 / 4 := by
    intro x _; nlinarith [sq_nonneg (x - 1 / 2)]
  have hlog : ∀ x ∈ Set.Icc (0 : ℝ) 1, 0 ≤ Real.log (1 + x * (1 - x) * s) ∧
      Real.log (1 + x * (1 - x) * s) ≤ x * (1 - x) * s := by
    intro x hx
    have h0 := mul_nonneg (weight_nonneg hx) hs.le
    refine ⟨Real.log_nonneg (by linarith), ?_⟩
    have := Real.log_le_sub_one_of_pos (x := 1 + x * (1 - x) * s) (by linarith)
    linarith
  have hrat : ∀ x ∈ Set.Icc (0 : ℝ) 1, 0 ≤ x * (1 - x) * s / (1 + x * (1 - x) * s) ∧
      x * (1 - x) * s / (1 + x * (1 - x) * s) ≤ x * (1 - x) * s := by
    intro x hx
    have h0 := mul_nonneg (weight_nonneg hx) hs.le
    exact ⟨by positivity, div_le_self h0 (by linarith)⟩
  have i1 : IntervalIntegrable (fun x : ℝ => x * (1 - x) * Real.log (1 + x * (1 - x) * s))
      MeasureTheory.volume 0 1 := by
    apply ContinuousOn.intervalIntegrable
    rw [Set.uIcc_of_le (by norm_num)]
    exact continuous_log_weight hs
  have i2 : IntervalIntegrable (fun x : ℝ => x * (1 - x) *
      (Real.log (1 + x * (1 - x) * s) + 2 * (x * (1 - x) * s / (1 + x * (1 - x) * s))))
      MeasureTheory.volume 0 1 := by
    apply ContinuousOn.intervalIntegrable
    rw [Set.uIcc_of_le (by norm_num)]
    refine ((continuous_log_weight hs).add ((continuous_ratio_weight hs).const_mul 2)).congr ?_
    intro x _
    simp; ring
  have b1 : ∫ x in (0 : ℝ)..1, x * (1 - x) * Real.log (1 + x * (1 - x) * s) ≤ s / 16 := by
    have := intervalIntegral.integral_mono_on (a := 0) (b := 1) (by norm_num) i1
      (intervalIntegrable_const (c := s / 16)) (by
        intro x hx
        have h1 := hw x hx
        have h2 := weight_nonneg hx
        calc x * (1 - x) * Real.log (1 + x * (1 - x) * s)
            ≤ (1 / 4) * (1 / 4 * s) := by
              apply mul_le_mul h1 _ (hlog x hx).1 (by norm_num)
              exact (hlog x hx).2.trans (mul_le_mul_of_nonneg_right h1 hs.le)
          _ = s / 16 := by ring)
    simpa using this
  have b2 : ∫ x in (0 : ℝ)..1, x * (1 - x) *
      (Real.log (1 + x * (1 - x) * s) + 2 * (x * (1 - x) * s / (1 + x * (1 - x) * s)))
      ≤ 3 * s / 16 := by
    have := intervalIntegral.integral_mono_on (a := 0) (b := 1) (by norm_num) i2
      (intervalIntegrable_const (c := 3 * s / 16)) (by
        intro x hx
        have h1 := hw x hx
        have h2 := weight_nonneg hx
        have h3 := mul_le_mul_of_nonneg_right h1 hs.le
        obtain ⟨l0, l1⟩ := hlog x hx
        obtain ⟨r0, r1⟩ := hrat x hx
        calc x * (1 - x) * (Real.log (1 + x * (1 - x) * s)
              + 2 * (x * (1 - x) * s / (1 + x * (1 - x) * s)))
            ≤ (1 / 4) * (3 * (1 / 4 * s)) := by
              apply mul_le_mul h1 _ (by linarith) (by norm_num)
              linarith
          _ = 3 * s / 16 := by ring)
    simpa using this
  have p1 : 0 < ∫ x in (0 : ℝ)..1, x * (1 - x) * Real.log (1 + x * (1 - x) * s) := by
    apply intervalIntegral.intervalIntegral_pos_of_pos_on i1 _ (by norm_num)
    intro x hx
    have : 0 < x * (1 - x) := mul_pos hx.1 (by linarith [hx.2])
    have h2 := mul_pos this hs
    exact mul_pos this (Real.log_pos (by linarith))
  have p2 : 0 < ∫ x in (0 : ℝ)..1, x * (1 - x) *
      (Real.log (1 + x * (1 - x) * s) + 2 * (x * (1 - x) * s / (1 + x * (1 - x) * s))) := by
    apply intervalIntegral.intervalIntegral_pos_of_pos_on i2 _ (by norm_num)
    intro x hx
    have : 0 < x * (1 - x) := mul_pos hx.1 (by linarith [hx.2])
    have h2 := mul_pos this hs
    have := Real.log_pos (x := 1 + x * (1 - x) * s) (by linarith)
    positivity
  rw [C61_feynman s hs, C61_feynman_crossed s hs]
  unfold feynman_fq feynman_fq_crossed
  refine ⟨?_, ?_, ?_, ?_⟩ <;> linarith

/-! ### C22 -/

/-- **C22**: the quark loops vanish at zero momentum. -/
theorem C22_zero_momentum :
    Tendsto (gluon.f_q : ℝ → ℝ) (𝓝[>] 0) (𝓝 0) ∧
    Tendsto (gluon.f_q_crossed : ℝ → ℝ) (𝓝[>] 0) (𝓝 0) := by
  have l1 : Tendsto (fun s : ℝ => -s / 12) (𝓝[>] 0) (𝓝 0) := by
    simpa using (tendsto_id_pos.neg.div_const 12)
  have l2 : Tendsto (fun s : ℝ => -s / 4) (𝓝[>] 0) (𝓝 0) := by
    simpa using (tendsto_id_pos.neg.div_const 4)
  constructor
  · refine tendsto_of_tendsto_of_tendsto_of_le_of_le' l1 tendsto_const_nhds ?_ ?_ <;>
    filter_upwards [eventually_mem_nhdsWithin] with s hs
    · exact (C61_sign s hs).2.1
    · exact (C61_sign s hs).1.le
  · refine tendsto_of_tendsto_of_tendsto_of_le_of_le' l2 tendsto_const_nhds ?_ ?_ <;>
    filter_upwards [eventually_mem_nhdsWithin] with s hs
    · exact (C61_sign s hs).2.2.2
    · exact (C61_sign s hs).2.2.1.le

/-- **C23** (real): for every `s > 0`. -/
theorem C23_real (s : ℝ) (hs : 0 < s) :
    DifferentiableAt ℝ (gluon.f_q : ℝ → ℝ) s ∧
    gluon.f_q_crossed s = gluon.f_q s + 2 * s * deriv (gluon.f_q : ℝ → ℝ) s := by
  obtain ⟨h1, hsq⟩ := root_facts hs
  have hs0 := hs.ne'
  have hA : s⁻¹ * 4 + 1 ≠ 0 := by positivity
  have d0 : HasDerivAt (fun s : ℝ => s⁻¹) (-(s ^ 2)⁻¹) s := hasDerivAt_inv hs0
  have da : HasDerivAt (fun s : ℝ => Real.sqrt (s⁻¹ * 4 + 1))
      (-(s ^ 2)⁻¹ * 4 / (2 * Real.sqrt (s⁻¹ * 4 + 1))) s :=
    ((d0.mul_const 4).add_const 1).sqrt hA
  have ha1 : Real.sqrt (s⁻¹ * 4 + 1) + 1 ≠ 0 := by linarith
  have hm1 : Real.sqrt (s⁻¹ * 4 + 1) - 1 ≠ 0 := by linarith
  have ha0 : Real.sqrt (s⁻¹ * 4 + 1) ≠ 0 := by linarith
  have dL := ((da.sub_const 1).div (da.add_const 1) ha1).log (div_ne_zero hm1 ha1)
  have key := ((((((d0.neg.add_const (1 / 2 : ℝ)).mul da).mul dL).sub
    (d0.mul_const 2)).add_const (5 / 6 : ℝ)).mul_const 4).div_const 9
  have hf : HasDerivAt (gluon.f_q : ℝ → ℝ) ((gluon.f_q_crossed s - gluon.f_q s) / (2 * s)) s := by
    refine HasDerivAt.congr_deriv key ?_
    simp only [gluon.f_q, gluon.f_q_crossed, ofR_real, ln_real, sqrt_real]
    simp only [Pi.mul_apply, Pi.neg_apply, Pi.div_apply]
    set a := Real.sqrt (s⁻¹ * 4 + 1) with hadef
    set L := Real.log ((a - 1) / (a + 1)) with hL
    have hsinv : s⁻¹ = (a * a - 1) / 4 := by linear_combination -hsq / 4
    have hs' : s = 4 / (a * a - 1) := by
      rw [← inv_inv s, hsinv, inv_div]
    have hne : a * a - 1 ≠ 0 := by
      have : a * a - 1 = (a - 1) * (a + 1) := by ring
      rw [this]; exact mul_ne_zero hm1 ha1
    clear_value L
    rw [hs']
    field_simp
    ring
  refine ⟨hf.differentiableAt, ?_⟩
  rw [hf.deriv]
  field_simp
  ring

end Qcd
