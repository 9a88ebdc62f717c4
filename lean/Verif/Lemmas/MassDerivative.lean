import Verif.Lemmas.Angular
import Verif.Lemmas.ThermalBranch
import Mathlib.Analysis.SpecialFunctions.Complex.LogDeriv
import Mathlib.Analysis.SpecialFunctions.Sqrt
import Mathlib.Analysis.SpecialFunctions.ExpDeriv
import Mathlib.Analysis.SpecialFunctions.Exp
import Mathlib.Analysis.SpecialFunctions.Complex.Arg

/-! # Derivatives of the logarithmic combinations of the thermal integrands

`q`, the energy and the mass difference move along a real curve. -/

namespace Qcd
open Filter Topology

section path
variable {q E d : ℝ → ℝ} {q' E' d' t : ℝ}

theorem R0_path (hE : HasDerivAt E E' t) (hd : HasDerivAt d d' t) (om : ℂ) (p : ℝ) :
    HasDerivAt (fun t => R0 om p (E t) (d t)) (2 * Complex.I * om * E' + d') t := by
  have h := ((hasDerivAt_const t (om * om)).add ((hE.ofReal_comp.mul_const (2 * Complex.I)).const_mul om)).add
    ((hasDerivAt_const t ((p : ℂ) * p)).add hd.ofReal_comp)
  refine (h.congr_deriv (by ring)).congr_of_eventuallyEq (Eventually.of_forall fun x => ?_)
  simp only [R0, Pi.add_apply]; ring

theorem PF_path (hE : HasDerivAt E E' t) (hd : HasDerivAt d d' t) (om : ℂ) (p : ℝ) :
    HasDerivAt (fun t => PF om p (E t) (d t)) ((2 * Complex.I * om + 2 * Complex.I * p ^ 2 * om⁻¹) * E' + d') t := by
  have h := ((hasDerivAt_const t (om * om)).add ((hE.ofReal_comp.mul_const (2 * Complex.I)).const_mul om)).add
    (((hasDerivAt_const t ((p : ℂ) * p)).add hd.ofReal_comp).add
      ((hE.ofReal_comp.mul_const (2 * Complex.I)).const_mul ((p : ℂ) * p * om⁻¹)))
  refine (h.congr_deriv (by ring)).congr_of_eventuallyEq (Eventually.of_forall fun x => ?_)
  simp only [PF, Pi.add_apply]; ring

theorem TL_path (hq : HasDerivAt q q' t) (hE : HasDerivAt E E' t) (hd : HasDerivAt d d' t) {om : ℂ} {p : ℝ}
    (h : (R0 om p (E t) (d t)).im ≠ 0) :
    HasDerivAt (fun t => TL (q t) om p (E t) (d t))
      (q' * (2 * p * ((R0 om p (E t) (d t) + 2 * (q t) * p)⁻¹ + (R0 om p (E t) (d t) - 2 * (q t) * p)⁻¹))
        + E' * (2 * Complex.I * om * ((R0 om p (E t) (d t) + 2 * (q t) * p)⁻¹ - (R0 om p (E t) (d t) - 2 * (q t) * p)⁻¹))
        + d' * ((R0 om p (E t) (d t) + 2 * (q t) * p)⁻¹ - (R0 om p (E t) (d t) - 2 * (q t) * p)⁻¹)) t := by
  have hA := R0_path hE hd om p
  have hb : HasDerivAt (fun t => (p : ℂ) * (q t : ℂ) * 2) (p * q' * 2) t := (hq.ofReal_comp.const_mul (p : ℂ)).mul_const 2
  have s := TL_arg_slit (q := q t) h
  have n1 : (p : ℂ) * q t * 2 + R0 om p (E t) (d t) ≠ 0 := by
    have := quot_num_ne h (p * q t * 2); push_cast at this; exact this
  have n2 : -((p : ℂ) * q t * 2) + R0 om p (E t) (d t) ≠ 0 := by
    have := quot_num_ne h (-(p * q t * 2)); push_cast at this; exact this
  have k := ((hb.add hA).div (hb.neg.add hA) n2).clog_real s
  refine k.congr_deriv ?_
  rw [show R0 om p (E t) (d t) + 2 * (q t) * p = (p : ℂ) * q t * 2 + R0 om p (E t) (d t) by ring,
    show R0 om p (E t) (d t) - 2 * (q t) * p = -((p : ℂ) * q t * 2) + R0 om p (E t) (d t) by ring]
  simp only [Pi.add_apply, Pi.neg_apply, Pi.div_apply]
  generalize R0 om p (E t) (d t) = A at *
  obtain ⟨X, hX⟩ : ∃ X, X = (p : ℂ) * q t * 2 + A := ⟨_, rfl⟩
  obtain ⟨Y, hY⟩ : ∃ X, X = -((p : ℂ) * q t * 2) + A := ⟨_, rfl⟩
  rw [← hX] at n1 ⊢
  rw [← hY] at n2 ⊢
  clear hX hY s k hb hA h
  field_simp
  ring

end path

/-! ### Energy and weight -/

/-- The energy as a function of the momentum and of the mass squared. -/
noncomputable def eM (q M : ℝ) : ℝ := Real.sqrt (M + q * q)

theorem eM_eq {M : ℝ} (hM : 0 ≤ M) (q : ℝ) : energy q (Real.sqrt M) = eM q M := by
  simp [energy, energy_squared, eM, Real.mul_self_sqrt hM]

theorem eM_ne {q M : ℝ} (hM : 0 < M) : M + q * q ≠ 0 := by nlinarith [mul_self_nonneg q]
theorem eM_pos {q M : ℝ} (hM : 0 < M) : 0 < eM q M := Real.sqrt_pos.2 (by nlinarith [mul_self_nonneg q])
theorem sqrt_le_eM (q M : ℝ) : Real.sqrt M ≤ eM q M := Real.sqrt_le_sqrt (by nlinarith [mul_self_nonneg q])
theorem le_eM {M : ℝ} (hM : 0 ≤ M) (q : ℝ) : q ≤ eM q M := Real.le_sqrt_of_sq_le (by nlinarith)
theorem eM_le {q M : ℝ} (hM : 0 ≤ M) (hq : 0 ≤ q) : eM q M ≤ Real.sqrt M + q := by
  have h := Real.sqrt_nonneg M
  refine Real.sqrt_le_iff.2 ⟨by positivity, ?_⟩
  nlinarith [Real.mul_self_sqrt hM, mul_nonneg h hq]

theorem eM_deriv_M {q M : ℝ} (hM : 0 < M) : HasDerivAt (fun M => eM q M) (1 / (2 * eM q M)) M := by
  have := ((hasDerivAt_id M).add_const (q * q)).sqrt (eM_ne hM)
  simpa [eM] using this

theorem eM_deriv_q {q M : ℝ} (hM : 0 < M) : HasDerivAt (fun q => eM q M) (q / eM q M) q := by
  have := (((hasDerivAt_id q).mul (hasDerivAt_id q)).const_add M).sqrt (eM_ne hM)
  refine this.congr_deriv ?_
  simp only [eM, id, Pi.mul_apply]
  have h0 := (eM_pos (q := q) hM).ne'
  unfold eM at h0
  field_simp; ring

/-- `n(E)/E`. -/
noncomputable def hB (beta e : ℝ) : ℝ := bose_distribution_zero_chempot e beta / e

theorem hB_eq (beta e : ℝ) : hB beta e = (Real.exp (e * beta) - 1)⁻¹ / e := by
  simp [hB, bose_distribution_zero_chempot, statistic_distribution_exponential_zero_chempot]

theorem exp_sub_ne {beta e : ℝ} (hb : 0 < beta) (he : 0 < e) : Real.exp (e * beta) - 1 ≠ 0 :=
  (sub_pos.2 (Real.one_lt_exp_iff.2 (mul_pos he hb))).ne'

theorem hB_diff {beta e : ℝ} (hb : 0 < beta) (he : 0 < e) : ∃ h', HasDerivAt (hB beta) h' e := by
  have h := (((((hasDerivAt_id e).mul_const beta).exp).sub_const 1).inv (exp_sub_ne hb he)).div (hasDerivAt_id e) he.ne'
  exact ⟨_, h.congr_of_eventuallyEq (Eventually.of_forall fun x => hB_eq beta x)⟩

theorem eM_tendsto_zero {M : ℝ} : Tendsto (fun q => eM q M) (𝓝[>] 0) (𝓝 (Real.sqrt M)) := by
  have : Continuous fun q => eM q M := by unfold eM; fun_prop
  have h := this.tendsto 0
  simp only [eM, mul_zero, add_zero] at h
  exact h.mono_left nhdsWithin_le_nhds

theorem hB_zero {beta M : ℝ} (hb : 0 < beta) (hM : 0 < M) :
    Tendsto (fun q => hB beta (eM q M)) (𝓝[>] 0) (𝓝 (hB beta (Real.sqrt M))) := by
  obtain ⟨h', hh⟩ := hB_diff hb (Real.sqrt_pos.2 hM)
  exact hh.continuousAt.tendsto.comp eM_tendsto_zero

theorem hB_bigO {beta M : ℝ} (hb : 0 < beta) (hM : 0 < M) :
    (fun q => hB beta (eM q M)) =O[atTop] (fun q => Real.exp (-(beta * q))) := by
  refine Asymptotics.IsBigO.of_bound (2 / Real.sqrt M) ?_
  have hlim : Tendsto (fun q : ℝ => Real.exp (q * beta)) atTop atTop :=
    Real.tendsto_exp_atTop.comp (tendsto_id.atTop_mul_const hb)
  filter_upwards [hlim.eventually_ge_atTop 2, eventually_gt_atTop 0] with q h2 hq
  have he := eM_pos (q := q) hM
  have hge : Real.exp (q * beta) ≤ Real.exp (eM q M * beta) :=
    Real.exp_le_exp.2 (mul_le_mul_of_nonneg_right (le_eM hM.le q) hb.le)
  have hsq := Real.sqrt_pos.2 hM
  have h3 : Real.exp (q * beta) / 2 ≤ Real.exp (eM q M * beta) - 1 := by linarith
  have hpos : 0 < Real.exp (eM q M * beta) - 1 := by linarith
  have h1 : (Real.exp (eM q M * beta) - 1)⁻¹ ≤ 2 * Real.exp (-(beta * q)) := by
    rw [Real.exp_neg, mul_comm beta q, ← one_div, ← div_eq_mul_inv, div_le_div_iff₀ hpos (Real.exp_pos _)]
    linarith
  rw [hB_eq, Real.norm_of_nonneg (by positivity), Real.norm_of_nonneg (Real.exp_pos _).le]
  calc (Real.exp (eM q M * beta) - 1)⁻¹ / eM q M ≤ 2 * Real.exp (-(beta * q)) / Real.sqrt M :=
        div_le_div₀ (by positivity) h1 hsq (sqrt_le_eM q M)
    _ = 2 / Real.sqrt M * Real.exp (-(beta * q)) := by ring

/-- The weight beats every power. -/
theorem hB_mul_tendsto {beta M : ℝ} (hb : 0 < beta) (hM : 0 < M) {G : ℝ → ℂ} {k : ℕ}
    (hG : G =O[atTop] (fun q : ℝ => q ^ k)) :
    Tendsto (fun q => (hB beta (eM q M) : ℂ) * G q) atTop (𝓝 0) := by
  have h1 : (fun q => (hB beta (eM q M) : ℂ)) =O[atTop] (fun q => Real.exp (-(beta * q))) := by
    refine Asymptotics.IsBigO.trans ?_ (hB_bigO hb hM)
    exact Asymptotics.IsBigO.of_bound 1 (Eventually.of_forall fun q => by simp)
  have h2 : (fun q : ℝ => Real.exp (-(beta * q)) * q ^ k) =o[atTop] (fun _ => (1 : ℝ)) := by
    have h3 := isLittleO_pow_exp_pos_mul_atTop k hb
    have h4 := (Asymptotics.isBigO_refl (fun q : ℝ => Real.exp (-(beta * q))) atTop).mul_isLittleO h3
    refine h4.congr_right fun q => ?_
    rw [← Real.exp_add]; simp
  have h5 := (h1.mul hG).trans_isLittleO h2
  exact (Asymptotics.isLittleO_one_iff ℝ).1 h5

/-! ### Growth of the ingredients -/

theorem isBigO_one_pow (k : ℕ) (c : ℂ) : (fun _ : ℝ => c) =O[atTop] (fun q : ℝ => q ^ k) := by
  refine Asymptotics.IsBigO.of_bound ‖c‖ ?_
  filter_upwards [eventually_ge_atTop 1] with q hq
  have : (1 : ℝ) ≤ ‖q ^ k‖ := by
    rw [norm_pow, Real.norm_of_nonneg (by linarith)]
    exact one_le_pow₀ hq
  nlinarith [norm_nonneg c]

theorem isBigO_q : (fun q : ℝ => (q : ℂ)) =O[atTop] (fun q : ℝ => q ^ 1) :=
  Asymptotics.IsBigO.of_bound 1 (Eventually.of_forall fun q => by simp)

theorem isBigO_eM {M : ℝ} (hM : 0 ≤ M) : (fun q : ℝ => (eM q M : ℂ)) =O[atTop] (fun q : ℝ => q ^ 1) := by
  refine Asymptotics.IsBigO.of_bound (Real.sqrt M + 1) ?_
  filter_upwards [eventually_ge_atTop 1] with q hq
  have h0 : 0 ≤ q := by linarith
  simp only [Complex.norm_real, pow_one]
  rw [Real.norm_of_nonneg (show 0 ≤ eM q M from Real.sqrt_nonneg _), Real.norm_of_nonneg h0]
  have := eM_le hM h0
  nlinarith [Real.sqrt_nonneg M]

theorem isBigO_R0 {M : ℝ} (hM : 0 ≤ M) (om p d : ℂ) :
    (fun q : ℝ => R0 om p (eM q M) d) =O[atTop] (fun q : ℝ => q ^ 1) := by
  unfold R0
  exact ((isBigO_one_pow 1 _).add (((((isBigO_eM hM).const_mul_left (om * (2 * Complex.I)))).congr_left
    fun q => by ring))).add (isBigO_one_pow 1 _)

theorem isBigO_PF {M : ℝ} (hM : 0 ≤ M) (om p d : ℂ) :
    (fun q : ℝ => PF om p (eM q M) d) =O[atTop] (fun q : ℝ => q ^ 1) := by
  have h := (isBigO_one_pow 1 (om * om + d + p * p)).add ((isBigO_eM hM).const_mul_left (om * (2 * Complex.I) + p * p * om⁻¹ * (2 * Complex.I)))
  refine h.congr_left fun q => ?_
  unfold PF; ring

theorem norm_log_le {z w : ℂ} {c : ℝ} (hc : 0 < c) (hz : c ≤ ‖z‖) (hw : c ≤ ‖w‖) :
    ‖Complex.log (z / w)‖ ≤ ‖z‖ + ‖w‖ + 2 * c⁻¹ + Real.pi := by
  have key : ∀ x : ℝ, c ≤ x → |Real.log x| ≤ x + c⁻¹ := by
    intro x hx
    have hx0 : 0 < x := hc.trans_le hx
    have h1 := Real.log_le_sub_one_of_pos hx0
    have h2 := Real.log_le_sub_one_of_pos (inv_pos.2 hx0)
    rw [Real.log_inv] at h2
    have h3 : x⁻¹ ≤ c⁻¹ := inv_anti₀ hc hx
    have h4 := inv_pos.2 hc
    rw [abs_le]; constructor <;> linarith
  have hzn : ‖z‖ ≠ 0 := (hc.trans_le hz).ne'
  have hwn : ‖w‖ ≠ 0 := (hc.trans_le hw).ne'
  refine (Complex.norm_le_abs_re_add_abs_im _).trans ?_
  rw [Complex.log_re, Complex.log_im, norm_div, Real.log_div hzn hwn]
  have h1 := key _ hz
  have h2 := key _ hw
  have h3 := Complex.abs_arg_le_pi (z / w)
  have h4 := abs_sub (Real.log ‖z‖) (Real.log ‖w‖)
  linarith

theorem isBigO_TL {M : ℝ} (hM : 0 ≤ M) {om : ℂ} (hr : om.re ≠ 0) (hi : |om.im| < Real.sqrt M) (p d : ℝ) :
    (fun q : ℝ => TL q om p (eM q M) d) =O[atTop] (fun q : ℝ => q ^ 1) := by
  set c := 2 * |om.re| * (Real.sqrt M - |om.im|) with hcdef
  have hc : 0 < c := by have := abs_pos.2 hr; have : 0 < Real.sqrt M - |om.im| := by linarith
                        positivity
  have him : ∀ q : ℝ, c ≤ |(R0 om p (eM q M) d).im| := by
    intro q
    rw [R0_im om p (by simp) (by simp), Complex.ofReal_re, abs_mul, abs_mul, abs_two, hcdef]
    have h1 := sqrt_le_eM q M
    have h2 := neg_abs_le om.im
    have h3 : Real.sqrt M - |om.im| ≤ |om.im + eM q M| := le_trans (by linarith) (le_abs_self _)
    exact mul_le_mul_of_nonneg_left h3 (by positivity)
  have hb : ∀ (q a : ℝ), c ≤ ‖(a : ℂ) + R0 om p (eM q M) d‖ := fun q a =>
    (him q).trans (by simpa using Complex.abs_im_le_norm ((a : ℂ) + R0 om p (eM q M) d))
  have h1 : (fun q : ℝ => TL q om p (eM q M) d) =O[atTop] (fun q : ℝ =>
      ‖((p : ℂ) * q * 2 + R0 om p (eM q M) d)‖ + ‖(-((p : ℂ) * q * 2) + R0 om p (eM q M) d)‖ + (2 * c⁻¹ + Real.pi)) := by
    refine Asymptotics.IsBigO.of_bound 1 (Eventually.of_forall fun q => ?_)
    have hz := hb q (p * q * 2)
    have hw := hb q (-(p * q * 2))
    push_cast at hz hw
    rw [one_mul]
    refine (norm_log_le hc hz hw).trans ?_
    rw [Real.norm_of_nonneg (by have := inv_pos.2 hc; have := Real.pi_pos; positivity)]
    linarith
  refine h1.trans ?_
  have hq2 : (fun q : ℝ => (p : ℂ) * q * 2) =O[atTop] (fun q : ℝ => q ^ 1) :=
    (isBigO_q.const_mul_left ((p : ℂ) * 2)).congr_left fun q => by ring
  have h2 := (hq2.add (isBigO_R0 hM om p d)).norm_left
  have h3 := (hq2.neg_left.add (isBigO_R0 hM om p d)).norm_left
  refine (h2.add h3).add ?_
  have := (isBigO_one_pow 1 ((2 * c⁻¹ + Real.pi : ℝ) : ℂ)).norm_left
  refine this.congr_left fun q => ?_
  rw [Complex.norm_real, Real.norm_of_nonneg]
  have := inv_pos.2 hc; have := Real.pi_pos; positivity

theorem TL_tendsto_zero {M : ℝ} {om : ℂ} (hr : om.re ≠ 0) (hi : |om.im| < Real.sqrt M) (p d : ℝ) :
    Tendsto (fun q : ℝ => TL q om p (eM q M) d) (𝓝[>] 0) (𝓝 0) := by
  have hE : Tendsto (fun q : ℝ => (eM q M : ℂ)) (𝓝[>] 0) (𝓝 (Real.sqrt M : ℂ)) :=
    (Complex.continuous_ofReal.tendsto _).comp eM_tendsto_zero
  have hA : Tendsto (fun q : ℝ => R0 om p (eM q M) d) (𝓝[>] 0) (𝓝 (R0 om p (Real.sqrt M) d)) := by
    unfold R0
    exact ((hE.mul_const 2 |>.mul_const Complex.I |>.const_mul om).const_add _).add_const _
  have hq : Tendsto (fun q : ℝ => (p : ℂ) * q * 2) (𝓝[>] 0) (𝓝 0) := by
    have : Continuous fun q : ℝ => (p : ℂ) * q * 2 := by fun_prop
    have h := this.tendsto 0
    simp only [Complex.ofReal_zero, mul_zero, zero_mul] at h
    exact h.mono_left nhdsWithin_le_nhds
  have hne : R0 om p (Real.sqrt M) d ≠ 0 := by
    intro h0
    have := congrArg Complex.im h0
    rw [R0_im om p (by simp) (by simp), Complex.ofReal_re, Complex.zero_im] at this
    have h2 := abs_lt.1 hi
    exact mul_ne_zero (mul_ne_zero two_ne_zero hr) (by linarith) this
  have h := (hq.add hA).div (hq.neg.add hA) (by simpa using hne)
  simp only [zero_add, neg_zero, div_self hne] at h
  have h1 := (continuousAt_clog (show (1 : ℂ) ∈ Complex.slitPlane by simp)).tendsto.comp h
  simpa [Function.comp_def, TL] using h1

theorem isBigO_pow13 : (fun q : ℝ => q ^ 1) =O[atTop] (fun q : ℝ => q ^ 3) := by
  refine Asymptotics.IsBigO.of_bound 1 ?_
  filter_upwards [eventually_ge_atTop 1] with q hq
  rw [one_mul, norm_pow, norm_pow, Real.norm_of_nonneg (by linarith)]
  exact pow_le_pow_right₀ hq (by norm_num)

end Qcd
