import Verif.Spec.Covariant
import Verif.Lemmas.CovariantTrace
import Verif.Lemmas.CovariantAngle
import Verif.Lemmas.CovariantRadial
import Verif.Props.QcdDiagrams

/-! # C89: the vacuum functions in covariant gauges are the one-loop diagrams with the propagator of the gauge -/

namespace Qcd
open MeasureTheory Set Spec Filter Topology Hyper GluonRadial Matrix
open scoped Real RealInnerProductSpace

/-! ### Integrals over balls -/

/-- A homogeneous diagram, in units of the mass. -/
theorem homogeneous_ball {f : ℝ → ℝ → ℝ → ℝ → ℝ → ℝ} {A : ℝ → ℝ → ℝ} (h : Homogeneous f A) {P e : Momentum} (hP : P ≠ 0) (he : ‖e‖ = 1)
    (ho : (⟪e, P⟫ : ℝ) = 0) {M R : ℝ} (hM : 0 < M) (hR : 0 < R) :
    ∫ Q in Metric.ball (0 : Momentum) R, scalar (f M (‖P‖ ^ 2)) e P Q = 4 * π * (M * ∫ q in Ioo 0 (R / √M), q ^ 3 * A (‖P‖ / √M) q) := by
  rw [(h.ball hP he ho hM R).2, radial_scale (A (‖P‖ / √M)) hM hR]

/-- The difference of two homogeneous diagrams. -/
theorem homogeneous_sub {f1 f2 : ℝ → ℝ → ℝ → ℝ → ℝ → ℝ} {A1 A2 : ℝ → ℝ → ℝ} (h1 : Homogeneous f1 A1) (h2 : Homogeneous f2 A2) {P e : Momentum}
    (hP : P ≠ 0) (he : ‖e‖ = 1) (ho : (⟪e, P⟫ : ℝ) = 0) {M R : ℝ} (hM : 0 < M) (hR : 0 < R) :
    ∫ Q in Metric.ball (0 : Momentum) R, (scalar (f1 M (‖P‖ ^ 2)) e P Q - scalar (f2 M (‖P‖ ^ 2)) e P Q) =
      4 * π * (M * ∫ q in Ioo 0 (R / √M), q ^ 3 * (A1 (‖P‖ / √M) q - A2 (‖P‖ / √M) q)) := by
  have hn : 0 < ‖P‖ := norm_pos_iff.2 hP
  have ha : 0 < ‖P‖ / √M := div_pos hn (Real.sqrt_pos.2 hM)
  have i1 : IntegrableOn (fun q => q ^ 3 * A1 (‖P‖ / √M) q) (Ioo 0 (R / √M)) :=
    ((h1.continuous ha).integrableOn_Icc).mono_set Ioo_subset_Icc_self
  have i2 : IntegrableOn (fun q => q ^ 3 * A2 (‖P‖ / √M) q) (Ioo 0 (R / √M)) :=
    ((h2.continuous ha).integrableOn_Icc).mono_set Ioo_subset_Icc_self
  rw [integral_sub (h1.ball hP he ho hM R).1 (h2.ball hP he ho hM R).1, homogeneous_ball h1 hP he ho hM hR, homogeneous_ball h2 hP he ho hM hR]
  simp only [mul_sub]
  rw [integral_sub i1 i2]
  ring

/-! ### The gluon loop -/

/-- The part of the gluon loop that depends on the gauge. -/
noncomputable def loopGauge (xi M : ℝ) (e P Q : Momentum) : ℝ :=
  xi / 2 * ((scalar (cA1 M (‖P‖ ^ 2)) e P Q - scalar (cA2 M (‖P‖ ^ 2)) e P Q) + (scalar (cB1 M (‖P‖ ^ 2)) e P Q - scalar (cB2 M (‖P‖ ^ 2)) e P Q))
    + xi ^ 2 / 2 * scalar (cC M (‖P‖ ^ 2)) e P Q

theorem vec_dots {P e Q : Momentum} (he : ‖e‖ = 1) (ho : (⟪e, P⟫ : ℝ) = 0) (hQ : Q ≠ 0) (hPQ : P + Q ≠ 0) :
    vec e ⬝ᵥ vec e = 1 ∧ vec e ⬝ᵥ vec P = 0 ∧ msq (vec Q) ≠ 0 ∧ msq (vec P + vec Q) ≠ 0 := by
  refine ⟨by rw [vec_dot, real_inner_self_eq_norm_sq, he]; norm_num, by rw [vec_dot, ho]; norm_num, ?_, ?_⟩
  · rw [vec_msq]
    exact_mod_cast pow_ne_zero 2 (norm_ne_zero_iff.2 hQ)
  · rw [vec_add, vec_msq]
    exact_mod_cast pow_ne_zero 2 (norm_ne_zero_iff.2 hPQ)

theorem loop_gauge_vec (xi : ℝ) {P e Q : Momentum} (he : ‖e‖ = 1) (ho : (⟪e, P⟫ : ℝ) = 0) {M : ℝ} (hM : 0 < M) (hQ : Q ≠ 0) (hPQ : P + Q ≠ 0) :
    covariantLoop xi (vec e) (vec P) M (vec Q) - gluonLoop (vec e) (vec P) M (vec Q) = ((loopGauge xi M e P Q : ℝ) : ℂ) := by
  obtain ⟨h1, h2, h3, h4⟩ := vec_dots he ho hQ hPQ
  have n1 : 0 < ‖Q‖ ^ 2 := by have := norm_pos_iff.2 hQ; positivity
  have n2 : 0 < ‖P + Q‖ ^ 2 := by have := norm_pos_iff.2 hPQ; positivity
  rw [covariantLoop_closed xi h1 h2 M h3 h4, add_assoc, add_sub_cancel_left, vec_add, vec_msq, vec_msq, vec_msq, vec_dot]
  have e : loopGauge xi M e P Q = xi / 2 * ((‖P + Q‖ ^ 2 - ‖P‖ ^ 2) ^ 2 * (1 - ⟪e, Q⟫ ^ 2 / ‖P + Q‖ ^ 2) / ((‖P + Q‖ ^ 2 + M) * (‖Q‖ ^ 2) ^ 2)
      + (‖Q‖ ^ 2 - ‖P‖ ^ 2) ^ 2 * (1 - ⟪e, Q⟫ ^ 2 / ‖Q‖ ^ 2) / ((‖Q‖ ^ 2 + M) * (‖P + Q‖ ^ 2) ^ 2))
      + xi ^ 2 / 2 * ((‖P‖ ^ 2) ^ 2 * ⟪e, Q⟫ ^ 2 / ((‖Q‖ ^ 2) ^ 2 * (‖P + Q‖ ^ 2) ^ 2)) := by
    simp only [loopGauge, Hyper.scalar, cA1, cA2, cB1, cB2, cC]
    generalize ‖Q‖ ^ 2 = x at *
    generalize ‖P + Q‖ ^ 2 = y at *
    have a1 : x + M ≠ 0 := by positivity
    have a2 : y + M ≠ 0 := by positivity
    field_simp
  rw [e]
  push_cast
  ring

/-- The finite part of it. -/
noncomputable def gaugeFinite (xi s M : ℝ) : ℝ :=
  xi / (128 * π ^ 2) * (2 * (M * fA (s / M)) - 16 / 3 * s + (4 * s + 6 * M) * Real.log M) + xi ^ 2 * s / (64 * π ^ 2)

theorem gauge_finite (xi : ℝ) {P e : Momentum} (hP : P ≠ 0) (he : ‖e‖ = 1) (ho : (⟪e, P⟫ : ℝ) = 0) {M : ℝ} (hM : 0 < M) :
    IsFinitePart (fun Q => covariantLoop xi (vec e) (vec P) M Q - gluonLoop (vec e) (vec P) M Q) ((gaugeFinite xi (‖P‖ ^ 2) M : ℝ) : ℂ) := by
  have hn : 0 < ‖P‖ := norm_pos_iff.2 hP
  have hr : 0 < √M := Real.sqrt_pos.2 hM
  have hrM : √M ^ 2 = M := Real.sq_sqrt hM.le
  have hs : 0 < ‖P‖ ^ 2 / M := by positivity
  have sq : ∀ a : ℝ, (a / √M) ^ 2 = a ^ 2 / M := fun a => by rw [div_pow, hrM]
  have iA : ∀ R, IntegrableOn (fun Q => Hyper.scalar (cA1 M (‖P‖ ^ 2)) e P Q - Hyper.scalar (cA2 M (‖P‖ ^ 2)) e P Q) (Metric.ball 0 R) := fun R =>
    (cA1_homogeneous.ball hP he ho hM R).1.sub (cA2_homogeneous.ball hP he ho hM R).1
  have iB : ∀ R, IntegrableOn (fun Q => Hyper.scalar (cB1 M (‖P‖ ^ 2)) e P Q - Hyper.scalar (cB2 M (‖P‖ ^ 2)) e P Q) (Metric.ball 0 R) := fun R =>
    (cB1_homogeneous.ball hP he ho hM R).1.sub (cB2_homogeneous.ball hP he ho hM R).1
  have iC := fun R => (cC_homogeneous.ball hP he ho hM R).1
  refine isFinitePart_real (f := loopGauge xi M e P) ((ae_ne P).mono fun Q hQ => loop_gauge_vec xi he ho hM hQ.1 hQ.2)
    (fun c => (((iA c).add (iB c)).const_mul _).add ((iC c).const_mul _)) (a := 3 * xi / (64 * π ^ 2)) (b := -(xi * (2 * ‖P‖ ^ 2 + 3 * M) / (64 * π ^ 2)))
    (I := fun R => xi / 2 * (4 * π * (M * (π / 16 * (Ahi (‖P‖ ^ 2 / M) (R ^ 2 / M) + WA (‖P‖ ^ 2 / M) (sg (‖P‖ ^ 2 / M) (R ^ 2 / M))
        - Ahi (‖P‖ ^ 2 / M) (‖P‖ ^ 2 / M) + Alo (‖P‖ ^ 2 / M) (‖P‖ ^ 2 / M) - WA (‖P‖ ^ 2 / M) 1)))
      + 4 * π * (M * (π / 16 * (Bhi (‖P‖ ^ 2 / M) (R ^ 2 / M) - Bhi (‖P‖ ^ 2 / M) (‖P‖ ^ 2 / M) + Blo (‖P‖ ^ 2 / M) (‖P‖ ^ 2 / M)))))
      + xi ^ 2 / 2 * (4 * π * (M * (π / 16 * (2 * (‖P‖ ^ 2 / M) - (‖P‖ ^ 2 / M) ^ 2 * (R ^ 2 / M)⁻¹))))) ?_ ?_
  · filter_upwards [eventually_gt_atTop ‖P‖] with R hR
    have hR0 : 0 < R := hn.trans hR
    have hlt : ‖P‖ / √M < R / √M := div_lt_div_of_pos_right hR hr
    have ha : 0 < ‖P‖ / √M := div_pos hn hr
    have A := homogeneous_sub cA1_homogeneous cA2_homogeneous hP he ho hM hR0
    have B := homogeneous_sub cB1_homogeneous cB2_homogeneous hP he ho hM hR0
    have C := homogeneous_ball cC_homogeneous hP he ho hM hR0
    rw [covariant_radial_A ha hlt, sq, sq] at A
    rw [covariant_radial_B ha hlt, sq, sq] at B
    rw [covariant_radial_C ha hlt, show (‖P‖ / √M) ^ 4 = ((‖P‖ / √M) ^ 2) ^ 2 by ring, sq, sq] at C
    rw [← A, ← B, ← C, ← integral_add (iA R) (iB R), ← integral_const_mul, ← integral_const_mul]
    exact integral_add (((iA R).add (iB R)).const_mul _) ((iC R).const_mul _)
  · have h1 : Tendsto (fun R : ℝ => R ^ 2 / M) atTop atTop := (tendsto_pow_atTop two_ne_zero).atTop_div_const hM
    have tA := (asymA_tendsto hs).comp h1
    have tB := (asymB_tendsto (‖P‖ ^ 2 / M)).comp h1
    have tC : Tendsto (fun R : ℝ => (R ^ 2 / M)⁻¹) atTop (𝓝 0) := tendsto_inv_atTop_zero.comp h1
    have tt := (((tA.add tB).const_mul (xi / (128 * π ^ 2) * M)).add (tC.const_mul (-(xi ^ 2 / (128 * π ^ 2) * M * (‖P‖ ^ 2 / M) ^ 2)))).add_const
      (xi / (128 * π ^ 2) * (M * (-Ahi (‖P‖ ^ 2 / M) (‖P‖ ^ 2 / M) + Alo (‖P‖ ^ 2 / M) (‖P‖ ^ 2 / M) - WA (‖P‖ ^ 2 / M) 1
        - Bhi (‖P‖ ^ 2 / M) (‖P‖ ^ 2 / M) + Blo (‖P‖ ^ 2 / M) (‖P‖ ^ 2 / M)) + (4 * ‖P‖ ^ 2 + 6 * M) * Real.log M) + xi ^ 2 * ‖P‖ ^ 2 / (64 * π ^ 2))
    have e1 : xi / (128 * π ^ 2) * M * (3 * (1 - ‖P‖ ^ 2 / M) + 0) + -(xi ^ 2 / (128 * π ^ 2) * M * (‖P‖ ^ 2 / M) ^ 2) * 0 +
      (xi / (128 * π ^ 2) * (M * (-Ahi (‖P‖ ^ 2 / M) (‖P‖ ^ 2 / M) + Alo (‖P‖ ^ 2 / M) (‖P‖ ^ 2 / M) - WA (‖P‖ ^ 2 / M) 1
        - Bhi (‖P‖ ^ 2 / M) (‖P‖ ^ 2 / M) + Blo (‖P‖ ^ 2 / M) (‖P‖ ^ 2 / M)) + (4 * ‖P‖ ^ 2 + 6 * M) * Real.log M) + xi ^ 2 * ‖P‖ ^ 2 / (64 * π ^ 2)) =
        gaugeFinite xi (‖P‖ ^ 2) M := by
      have hB := fB_eq hs
      rw [fB] at hB
      have hA : fA (‖P‖ ^ 2 / M) = _ := rfl
      conv_rhs at hA => unfold fA
      have hMs : M * (‖P‖ ^ 2 / M) = ‖P‖ ^ 2 := by field_simp
      rw [gaugeFinite]
      linear_combination xi / (128 * π ^ 2) * M * hB - xi / (128 * π ^ 2) * M * hA - xi / (128 * π ^ 2) * (16 / 3) * hMs
    rw [e1] at tt
    refine tt.congr' ?_
    filter_upwards [eventually_gt_atTop 0] with R hR
    have e2 : Real.log (R ^ 2 / M) = Real.log (R ^ 2) - Real.log M := Real.log_div (by positivity) hM.ne'
    simp only [Function.comp_apply, e2]
    generalize Ahi (‖P‖ ^ 2 / M) (R ^ 2 / M) = k1
    generalize WA (‖P‖ ^ 2 / M) (sg (‖P‖ ^ 2 / M) (R ^ 2 / M)) = k2
    generalize Ahi (‖P‖ ^ 2 / M) (‖P‖ ^ 2 / M) = k3
    generalize Alo (‖P‖ ^ 2 / M) (‖P‖ ^ 2 / M) = k4
    generalize WA (‖P‖ ^ 2 / M) 1 = k5
    generalize Bhi (‖P‖ ^ 2 / M) (R ^ 2 / M) = k6
    generalize Bhi (‖P‖ ^ 2 / M) (‖P‖ ^ 2 / M) = k7
    generalize Blo (‖P‖ ^ 2 / M) (‖P‖ ^ 2 / M) = k8
    field_simp
    ring

theorem covariant_loop_finite (xi : ℝ) {P e : Momentum} (hP : P ≠ 0) (he : ‖e‖ = 1) (ho : (⟪e, P⟫ : ℝ) = 0) {M : ℝ} (hM : 0 < M) :
    IsFinitePart (covariantLoop xi (vec e) (vec P) M) ((glueFinite (‖P‖ ^ 2) M + gaugeFinite xi (‖P‖ ^ 2) M : ℝ) : ℂ) := by
  have h := (gluon_finite hP he ho hM).add (gauge_finite xi hP he ho hM)
  simp only [add_sub_cancel] at h
  rw [Complex.ofReal_add]
  exact h

theorem gauge_insertion (xi : ℝ) {s M : ℝ} (hs : 0 < s) (hM : 0 < M) : ∃ d, HasDerivAt (gaugeFinite xi s) d M ∧
    gaugeFinite xi s M - M * d = s / (16 * π ^ 2) * (xi * (-3 * gluon.f_xi (s / M) - 1 / 6 + Real.log M / 2) + xi ^ 2 / 4) := by
  obtain ⟨d, hd, hf⟩ := fA_deriv (s := s / M) (by positivity)
  have i : HasDerivAt (fun M : ℝ => M) 1 M := hasDerivAt_id M
  have v : HasDerivAt (fun M : ℝ => s / M) (-(s / M ^ 2)) M := by
    have := (hasDerivAt_inv hM.ne').const_mul s
    refine (this.congr_deriv (by field_simp)).congr_of_eventuallyEq (.of_forall fun x => ?_)
    simp [div_eq_mul_inv]
  have l : HasDerivAt (fun M => Real.log M) M⁻¹ M := Real.hasDerivAt_log hM.ne'
  have c := hd.comp M v
  have k := (((((i.fun_mul c).const_mul 2).sub_const (16 / 3 * s)).fun_add (((i.const_mul 6).const_add (4 * s)).fun_mul l)).const_mul
    (xi / (128 * π ^ 2))).add_const (xi ^ 2 * s / (64 * π ^ 2))
  refine ⟨_, k, ?_⟩
  have hd' : d = 12 * (1 / 3 + 1 / (4 * (s / M)) - gluon.f_xi (s / M)) := by rw [hf]; ring
  rw [hd', gaugeFinite, Function.comp_apply]
  generalize gluon.f_xi (s / M) = f
  generalize fA (s / M) = g
  generalize Real.log M = b
  field_simp
  ring

/-! ### The tadpole -/

theorem covariant_tadpole_finite (xi : ℝ) {P e : Momentum} (hP : P ≠ 0) (he : ‖e‖ = 1) (ho : (⟪e, P⟫ : ℝ) = 0) {M : ℝ} (hM : 0 < M) :
    IsFinitePart (covariantTadpole xi (vec e) M) ((-(9 / (64 * π ^ 2) * (M * Real.log M)) : ℝ) : ℂ) := by
  have hn : 0 < ‖P‖ := norm_pos_iff.2 hP
  have iT := fun R => (cT1_homogeneous.ball hP he ho one_pos R).1.sub (cT2_homogeneous.ball hP he ho one_pos R).1
  have h : IsFinitePart (fun Q => covariantTadpole xi (vec e) M Q - gluonTadpole (vec e) M Q) ((0 : ℝ) : ℂ) := by
    refine isFinitePart_real (f := fun Q => -xi * (scalar (cT1 1 (‖P‖ ^ 2)) e P Q - scalar (cT2 1 (‖P‖ ^ 2)) e P Q)) ((ae_ne P).mono fun Q hQ => ?_)
      (fun c => (iT c).const_mul _) (a := -(3 * xi / (64 * π ^ 2))) (b := 0) (I := fun R => -xi * (4 * π * (3 * π / 16 * R ^ 2))) ?_ ?_
    · obtain ⟨h1, -, h3, -⟩ := vec_dots he ho hQ.1 hQ.2
      rw [covariantTadpole_closed xi h1 M h3, sub_sub_cancel_left, vec_msq, vec_dot]
      simp only [Hyper.scalar, cT1, cT2]
      push_cast
      rw [vec_msq] at h3
      push_cast at h3
      have h3' : (‖Q‖ : ℂ) ≠ 0 := fun h => h3 (by rw [h]; ring)
      field_simp
    · filter_upwards [eventually_gt_atTop ‖P‖] with R hR
      have T := homogeneous_sub cT1_homogeneous cT2_homogeneous hP he ho one_pos (hn.trans hR)
      rw [integral_const_mul, T, Real.sqrt_one, div_one, div_one, one_mul, covariant_radial_T hn hR]
    · refine tendsto_const_nhds.congr fun R => ?_
      field_simp
      ring
  have h' := (tadpole_finite hP he ho hM).add h
  simp only [add_sub_cancel, Complex.ofReal_zero, add_zero] at h'
  exact h'

/-! ### The gluon self-energy -/

theorem covariant_polarization (xi : ℝ) {P : Momentum} (hP : P ≠ 0) {l : List Momentum} (hl : Polarisations P l) {M : ℝ} (hM : 0 < M) :
    IsCovariantPolarization xi (l.map vec) (vec P) M
      ((‖P‖ ^ 2 / (16 * π ^ 2) * (-3 * gluon.f (‖P‖ ^ 2 / M) - 13 / 6 * Real.log M + 262 / 72
        + xi * (-3 * gluon.f_xi (‖P‖ ^ 2 / M) - 1 / 6 + Real.log M / 2) + xi ^ 2 / 4) : ℝ) : ℂ) := by
  have hn : 0 < ‖P‖ := norm_pos_iff.2 hP
  obtain ⟨d, hd, e⟩ := glueFinite_insertion (s := ‖P‖ ^ 2) (M := M) (by positivity) hM
  obtain ⟨d', hd', e'⟩ := gauge_insertion xi (s := ‖P‖ ^ 2) (M := M) (by positivity) hM
  have h0 : l.map vec ≠ [] := by simpa using hl.1
  have hall : ∀ e ∈ l.map vec, ∃ e' ∈ l, vec e' = e := fun e he => List.mem_map.1 he
  refine ⟨_, _, _, ((-(1 / (192 * π ^ 2) * ‖P‖ ^ 2 * (Real.log (‖P‖ ^ 2) - 11 / 6)) : ℝ) : ℂ), _,
    fun M' hM' => IsFinitePart.average (F := fun e => covariantLoop xi e (vec P) M')
      (x := ((glueFinite (‖P‖ ^ 2) M' + gaugeFinite xi (‖P‖ ^ 2) M' : ℝ) : ℂ)) h0 fun e he => ?_,
    IsFinitePart.average (F := fun e => ghostLoop e (vec P)) h0 fun e he => ?_,
    fun M' hM' => IsFinitePart.average (F := fun e => covariantTadpole xi e M') (x := ((-(9 / (64 * π ^ 2) * (M' * Real.log M')) : ℝ) : ℂ)) h0 fun e he => ?_,
    ⟨_, (hd.fun_add hd').ofReal_comp, rfl⟩, tadpole_insertions hM, ?_⟩
  · obtain ⟨e', h1, rfl⟩ := hall e he
    exact covariant_loop_finite xi hP (hl.2 e' h1).1 (hl.2 e' h1).2 hM'
  · obtain ⟨e', h1, rfl⟩ := hall e he
    exact ghost_loop_finite hP (hl.2 e' h1).1 (hl.2 e' h1).2
  · obtain ⟨e', h1, rfl⟩ := hall e he
    exact covariant_tadpole_finite xi hP (hl.2 e' h1).1 (hl.2 e' h1).2 hM'
  · rw [show ((glueFinite (‖P‖ ^ 2) M + gaugeFinite xi (‖P‖ ^ 2) M : ℝ) : ℂ) - (M : ℂ) * ((d + d' : ℝ) : ℂ) =
        (((glueFinite (‖P‖ ^ 2) M - M * d) + (gaugeFinite xi (‖P‖ ^ 2) M - M * d') : ℝ) : ℂ) by push_cast; ring, e, e']
    rw [← Complex.ofReal_add, ← Complex.ofReal_add]
    congr 1
    generalize gluon.f (‖P‖ ^ 2 / M) = f
    generalize gluon.f_xi (‖P‖ ^ 2 / M) = f'
    generalize Real.log (‖P‖ ^ 2) = a
    field_simp
    ring

/-- The values are determined by the diagrams. -/
theorem C89_unique {xi : ℝ} {pol : List Vec} {P : Vec} {M : ℝ} (hM : 0 < M) {x y : ℂ} :
    (IsCovariantPolarization xi pol P M x → IsCovariantPolarization xi pol P M y → x = y) ∧
    (IsCovariantGhost xi P M x → IsCovariantGhost xi P M y → x = y) := by
  have near : ∀ {f f' : ℝ → ℂ} {M : ℝ}, 0 < M → (∀ M, 0 < M → f M = f' M) → f =ᶠ[𝓝 M] f' := fun hM h => by
    filter_upwards [lt_mem_nhds hM] with x hx using h x hx
  constructor
  · rintro ⟨D, E, g, h, t, h1, h2, h3, ⟨d, hd, rfl⟩, ⟨d1, d2, hd1, hd2, rfl⟩, rfl⟩
    rintro ⟨D', E', g', h', t', h1', h2', h3', ⟨d', hd', rfl⟩, ⟨d1', d2', hd1', hd2', rfl⟩, rfl⟩
    have eD : ∀ M, 0 < M → D M = D' M := fun M hM => (h1 M hM).unique (h1' M hM)
    have eE : ∀ M, 0 < M → E M = E' M := fun M hM => (h3 M hM).unique (h3' M hM)
    have e1 : d = d' := (hd.congr_of_eventuallyEq (near hM fun M hM => (eD M hM).symm)).unique hd'
    have e2 : ∀ M, 0 < M → d1 M = d1' M := fun M hM => ((hd1 M hM).congr_of_eventuallyEq (near hM fun M hM => (eE M hM).symm)).unique (hd1' M hM)
    have e3 : d2 = d2' := (hd2.congr_of_eventuallyEq (near hM fun M hM => (e2 M hM).symm)).unique hd2'
    rw [eD M hM, eE M hM, e1, e2 M hM, e3, h2.unique h2']
  · rintro ⟨D, h1, ⟨d, hd, rfl⟩⟩ ⟨D', h1', ⟨d', hd', rfl⟩⟩
    have eD : ∀ M, 0 < M → D M = D' M := fun M hM => (h1 M hM).unique (h1' M hM)
    have e1 : d = d' := (hd.congr_of_eventuallyEq (near hM fun M hM => (eD M hM).symm)).unique hd'
    rw [eD M hM, e1]

/-- **C89**: up to a constant, which depends on the mass, on the gauge and on the renormalisation condition only, the inverse dressing
function of the gluon in vacuum, in the gauge `ξ`, is minus the finite part of the one-loop self-energy with the propagator of that gauge,
divided by the momentum squared, for every momentum and for all polarisations orthogonal to it. -/
theorem C89_gluon_vacuum {m : ℝ} (hm : 0 < m) (f0 xi : ℝ) :
    ∃ z : ℂ, ∀ P : Momentum, P ≠ 0 → ∀ l : List Momentum, Polarisations P l →
      ∃ x : ℂ, IsCovariantPolarization xi (l.map vec) (vec P) (m ^ 2) x ∧
        ((ym.gluon.dressing_inv (‖P‖ ^ 2 / m ^ 2) f0 xi : ℝ) : ℂ) = z - 16 * π ^ 2 / 3 * (x / msq (vec P)) := by
  refine ⟨((f0 - 13 / 18 * Real.log (m ^ 2) + 262 / 216 + xi * (Real.log (m ^ 2) / 6 - 1 / 18) + xi ^ 2 / 12 : ℝ) : ℂ),
    fun P hP l hl => ⟨_, covariant_polarization xi hP hl (by positivity), ?_⟩⟩
  have hn : ‖P‖ ≠ 0 := norm_ne_zero_iff.2 hP
  have e : ym.gluon.dressing_inv (‖P‖ ^ 2 / m ^ 2) f0 xi = gluon.f (‖P‖ ^ 2 / m ^ 2) + f0 + gluon.f_xi (‖P‖ ^ 2 / m ^ 2) * xi := rfl
  rw [e, vec_msq]
  generalize gluon.f (‖P‖ ^ 2 / m ^ 2) = f
  generalize gluon.f_xi (‖P‖ ^ 2 / m ^ 2) = f'
  have hpi : (π : ℂ) ≠ 0 := by exact_mod_cast Real.pi_ne_zero
  have hnc : (‖P‖ : ℂ) ≠ 0 := by exact_mod_cast hn
  push_cast
  field_simp
  ring

/-! ### The ghost -/

theorem exists_polarisation (P : Momentum) : ∃ e : Momentum, ‖e‖ = 1 ∧ (⟪e, P⟫ : ℝ) = 0 := by
  obtain ⟨V, hV⟩ := exists_rotation P
  refine ⟨V (ax 1), by rw [LinearIsometryEquiv.norm_map, norm_ax], ?_⟩
  rw [← hV, LinearIsometryEquiv.inner_map_map, inner_smul_right, inner_ax_e0 (by decide), mul_zero]

theorem covariant_ghost_finite (xi : ℝ) {P : Momentum} (hP : P ≠ 0) {M : ℝ} (hM : 0 < M) :
    IsFinitePart (covariantGhost xi (vec P) M)
      ((-(‖P‖ ^ 2 / (64 * π ^ 2) * phi (‖P‖ ^ 2) M) - xi * ‖P‖ ^ 2 / (64 * π ^ 2) * (3 / 2 + Real.log (‖P‖ ^ 2)) : ℝ) : ℂ) := by
  have hn : 0 < ‖P‖ := norm_pos_iff.2 hP
  obtain ⟨e, he, ho⟩ := exists_polarisation P
  have iG := fun R => (cG1_homogeneous.ball hP he ho one_pos R).1.sub (cG2_homogeneous.ball hP he ho one_pos R).1
  have h : IsFinitePart (fun Q => covariantGhost xi (vec P) M Q - ghostSelfEnergy (vec P) M Q)
      ((-(xi * ‖P‖ ^ 2 / (64 * π ^ 2) * (3 / 2 + Real.log (‖P‖ ^ 2))) : ℝ) : ℂ) := by
    refine isFinitePart_real (f := fun Q => -xi / 4 * (scalar (cG1 1 (‖P‖ ^ 2)) e P Q - scalar (cG2 1 (‖P‖ ^ 2)) e P Q)) ((ae_ne P).mono fun Q hQ => ?_)
      (fun c => (iG c).const_mul _) (a := 0) (b := xi * ‖P‖ ^ 2 / (64 * π ^ 2))
      (I := fun R => -xi / 4 * (4 * π * (π / 4 * (3 / 2 * ‖P‖ ^ 2 - ‖P‖ ^ 2 * Real.log (R ^ 2) + ‖P‖ ^ 2 * Real.log (‖P‖ ^ 2) - ‖P‖ ^ 4 * (R ^ 2)⁻¹)))) ?_ ?_
    · have n1 : ‖Q‖ ≠ 0 := norm_ne_zero_iff.2 hQ.1
      have n2 : ‖P + Q‖ ≠ 0 := norm_ne_zero_iff.2 hQ.2
      have k1 : ⟪P, Q⟫ = (‖P + Q‖ ^ 2 - ‖P‖ ^ 2 - ‖Q‖ ^ 2) / 2 := by rw [norm_add_sq_real]; ring
      have k2 : ⟪Q, P + Q⟫ = (‖P + Q‖ ^ 2 - ‖P‖ ^ 2 + ‖Q‖ ^ 2) / 2 := by
        rw [inner_add_right, real_inner_self_eq_norm_sq, real_inner_comm, norm_add_sq_real]; ring
      rw [covariantGhost_closed, sub_sub_cancel_left, vec_add, vec_msq, vec_msq, vec_dot, vec_dot, k1, k2]
      simp only [Hyper.scalar, cG1, cG2]
      rw [show -xi / 4 * ((‖P + Q‖ ^ 2 - ‖P‖ ^ 2) ^ 2 / ((‖Q‖ ^ 2) ^ 2 * ‖P + Q‖ ^ 2) - (‖P + Q‖ ^ 2)⁻¹) =
        -(xi * ((‖P + Q‖ ^ 2 - ‖P‖ ^ 2 - ‖Q‖ ^ 2) / 2 * ((‖P + Q‖ ^ 2 - ‖P‖ ^ 2 + ‖Q‖ ^ 2) / 2) / ((‖Q‖ ^ 2) ^ 2 * ‖P + Q‖ ^ 2))) by
          field_simp
          ring]
      push_cast
      ring
    · filter_upwards [eventually_gt_atTop ‖P‖] with R hR
      have G := homogeneous_sub cG1_homogeneous cG2_homogeneous hP he ho one_pos (hn.trans hR)
      rw [integral_const_mul, G, Real.sqrt_one, div_one, div_one, one_mul, covariant_radial_G hn hR]
    · have t0 : Tendsto (fun R : ℝ => (R ^ 2)⁻¹) atTop (𝓝 0) := tendsto_inv_atTop_zero.comp (tendsto_pow_atTop two_ne_zero)
      have t := (t0.const_mul (xi * ‖P‖ ^ 4 / (64 * π ^ 2))).add_const (-(xi * ‖P‖ ^ 2 / (64 * π ^ 2) * (3 / 2 + Real.log (‖P‖ ^ 2))))
      rw [mul_zero, zero_add] at t
      refine t.congr fun R => ?_
      generalize (R ^ 2)⁻¹ = k
      field_simp
      ring
  have h' := (ghost_finite hP hM).add h
  simp only [add_sub_cancel] at h'
  rw [← Complex.ofReal_add] at h'
  exact h'

/-- **C89**: the same for the ghost. -/
theorem C89_ghost_vacuum {m : ℝ} (hm : 0 < m) (g0 xi : ℝ) :
    ∃ z : ℂ, ∀ P : Momentum, P ≠ 0 → ∃ x : ℂ, IsCovariantGhost xi (vec P) (m ^ 2) x ∧
      ((ghost.dressing_inv (‖P‖ ^ 2 / m ^ 2) g0 xi : ℝ) : ℂ) = z + 16 * π ^ 2 / 3 * (x / msq (vec P)) := by
  refine ⟨((g0 - 1 / 4 * Real.log (m ^ 2) + 11 / 24 + xi * (Real.log (m ^ 2) / 12 + 1 / 8) : ℝ) : ℂ), fun P hP => ?_⟩
  have hn : ‖P‖ ≠ 0 := norm_ne_zero_iff.2 hP
  obtain ⟨d, hd, e⟩ := phi_deriv (s := ‖P‖ ^ 2) (M := m ^ 2) (by positivity) (by positivity)
  refine ⟨_, ⟨fun M => ((-(‖P‖ ^ 2 / (64 * π ^ 2) * phi (‖P‖ ^ 2) M) - xi * ‖P‖ ^ 2 / (64 * π ^ 2) * (3 / 2 + Real.log (‖P‖ ^ 2)) : ℝ) : ℂ),
    fun M hM => covariant_ghost_finite xi hP hM, ⟨_, HasDerivAt.ofReal_comp
      (f := fun M => -(‖P‖ ^ 2 / (64 * π ^ 2) * phi (‖P‖ ^ 2) M) - xi * ‖P‖ ^ 2 / (64 * π ^ 2) * (3 / 2 + Real.log (‖P‖ ^ 2)))
      ((hd.const_mul _).fun_neg.sub_const _), rfl⟩⟩, ?_⟩
  have e1 : ghost.dressing_inv (‖P‖ ^ 2 / m ^ 2) g0 xi = ghost.g (‖P‖ ^ 2 / m ^ 2) + g0 + -Real.log (‖P‖ ^ 2 / m ^ 2) / 12 * xi := rfl
  have k : ghost.g (‖P‖ ^ 2 / m ^ 2) = (phi (‖P‖ ^ 2) (m ^ 2) - m ^ 2 * d + 3 * Real.log (m ^ 2) - 11 / 2) / -12 := by rw [e]; ring
  rw [e1, k, vec_msq, Real.log_div (by positivity) (by positivity)]
  generalize Real.log (‖P‖ ^ 2) = a
  generalize Real.log (m ^ 2) = b
  have hpi : (π : ℂ) ≠ 0 := by exact_mod_cast Real.pi_ne_zero
  have hnc : (‖P‖ : ℂ) ≠ 0 := by exact_mod_cast hn
  push_cast
  field_simp
  ring

/-! ### QCD -/

variable {g : Fin 4 → Matrix (Fin 4) (Fin 4) ℂ}

/-- **C89** (QCD, any list of quarks). -/
theorem C89_vacuum_config (hg : IsClifford g) (k : consts.Consts ℝ) {nc : ℕ} (hnc : nc ≠ 0) {m : ℝ} (hm : 0 < m) (qs : List (ℕ × ℝ))
    (hq : ∀ q ∈ qs, 0 < q.2) (f0 xi : ℝ) :
    (∃ z : ℂ, ∀ P : Momentum, P ≠ 0 → ∀ l : List Momentum, Polarisations P l →
      ∃ (x : ℂ) (ys : List ℂ), IsCovariantPolarization xi (l.map vec) (vec P) (m ^ 2) x ∧
        List.Forall₂ (fun q y => IsVacuumQuarkLoop g nc (l.map vec) (vec P) q.2 y) qs ys ∧
        ((qcd.gluon.dressing_inv_w_field_config k (‖P‖ ^ 2 / m ^ 2) f0 xi (FieldConfig.new nc m qs) : ℝ) : ℂ) =
          z - 16 * π ^ 2 / 3 * ((x + flavours qs ys) / msq (vec P))) ∧
    (∃ z : ℂ, ∀ P : Momentum, P ≠ 0 → ∀ l : List Momentum, Polarisations P l →
      ∃ (x : ℂ) (ys : List ℂ), IsCovariantPolarization xi (l.map vec) (vec P) (m ^ 2) x ∧
        List.Forall₂ (fun q y => IsVacuumCrossedQuarkLoop g nc (l.map vec) (vec P) q.2 y) qs ys ∧
        ((qcd.gluon.dressing_crossed_inv_w_field_config k (‖P‖ ^ 2 / m ^ 2) f0 xi (FieldConfig.new nc m qs) : ℝ) : ℂ) =
          z - 16 * π ^ 2 / 3 * ((x + flavours qs ys) / msq (vec P))) := by
  have hc : (nc : ℝ) ≠ 0 := by exact_mod_cast hnc
  obtain ⟨z0, hz0⟩ := C89_gluon_vacuum hm f0 xi
  constructor
  · obtain ⟨z, hz⟩ := quark_list (F := gluon.f_q) (L := IsVacuumQuarkLoop g nc) hm (fun mq hmq => C87_quark_loop hg hc hmq) qs hq
    refine ⟨z0 + z, fun P hP l hl => ?_⟩
    obtain ⟨x, hx, ex⟩ := hz0 P hP l hl
    obtain ⟨ys, hy, ey⟩ := hz P hP l hl
    refine ⟨x, ys, hx, hy, ?_⟩
    rw [(C29_additive k (‖P‖ ^ 2 / m ^ 2) f0 xi nc m qs).2.1, Complex.ofReal_add, ex, ey]
    ring
  · obtain ⟨z, hz⟩ := quark_list (F := gluon.f_q_crossed) (L := IsVacuumCrossedQuarkLoop g nc) hm (fun mq hmq => C87_crossed_quark_loop hg hc hmq) qs hq
    refine ⟨z0 + z, fun P hP l hl => ?_⟩
    obtain ⟨x, hx, ex⟩ := hz0 P hP l hl
    obtain ⟨ys, hy, ey⟩ := hz P hP l hl
    refine ⟨x, ys, hx, hy, ?_⟩
    rw [(C29_additive k (‖P‖ ^ 2 / m ^ 2) f0 xi nc m qs).2.2.2, Complex.ofReal_add, ex, ey]
    ring

theorem single_flavour_gauge {k : consts.Consts ℝ} (hk : k.nf_div_nc = (k.nf : ℝ) / (k.nc : ℝ)) (s m mq f0 xi : ℝ) :
    qcd.gluon.dressing_inv k s (mq / m) f0 xi = qcd.gluon.dressing_inv_w_field_config k s f0 xi (FieldConfig.new k.nc m [(k.nf, mq)]) ∧
    qcd.gluon.dressing_crossed_inv k s (mq / m) f0 xi =
      qcd.gluon.dressing_crossed_inv_w_field_config k s f0 xi (FieldConfig.new k.nc m [(k.nf, mq)]) := by
  constructor
  · simp only [qcd.gluon.dressing_inv, qcd.gluon.dressing_inv_w_field_config, FieldConfig.new, List.map_cons, List.map_nil, List.foldl_cons,
      List.foldl_nil, QuarkInternal.new, hk]
  · simp only [qcd.gluon.dressing_crossed_inv, qcd.gluon.dressing_crossed_inv_w_field_config, FieldConfig.new, List.map_cons, List.map_nil,
      List.foldl_cons, List.foldl_nil, QuarkInternal.new, hk]

/-- **C89** (QCD, global flavours), after any sequence of calls that set the global parameters. -/
theorem C89_vacuum (hg : IsClifford g) (h : List (consts.Setter ℝ)) (hnc : (consts.after h).nc ≠ 0) {m mq : ℝ} (hm : 0 < m) (hq : 0 < mq) (f0 xi : ℝ) :
    (∃ z : ℂ, ∀ P : Momentum, P ≠ 0 → ∀ l : List Momentum, Polarisations P l →
      ∃ x y : ℂ, IsCovariantPolarization xi (l.map vec) (vec P) (m ^ 2) x ∧ IsVacuumQuarkLoop g (consts.after h).nc (l.map vec) (vec P) mq y ∧
        ((qcd.gluon.dressing_inv (consts.after h) (‖P‖ ^ 2 / m ^ 2) (mq / m) f0 xi : ℝ) : ℂ) =
          z - 16 * π ^ 2 / 3 * ((x + (consts.after h).nf * y) / msq (vec P))) ∧
    (∃ z : ℂ, ∀ P : Momentum, P ≠ 0 → ∀ l : List Momentum, Polarisations P l →
      ∃ x y : ℂ, IsCovariantPolarization xi (l.map vec) (vec P) (m ^ 2) x ∧ IsVacuumCrossedQuarkLoop g (consts.after h).nc (l.map vec) (vec P) mq y ∧
        ((qcd.gluon.dressing_crossed_inv (consts.after h) (‖P‖ ^ 2 / m ^ 2) (mq / m) f0 xi : ℝ) : ℂ) =
          z - 16 * π ^ 2 / 3 * ((x + (consts.after h).nf * y) / msq (vec P))) := by
  have hk : (consts.after h).nf_div_nc = ((consts.after h).nf : ℝ) / ((consts.after h).nc : ℝ) := consts.C02_ratio_current h
  obtain ⟨⟨z, hz⟩, ⟨z', hz'⟩⟩ := C89_vacuum_config hg (consts.after h) hnc hm [((consts.after h).nf, mq)] (by simpa using hq) f0 xi
  constructor
  · refine ⟨z, fun P hP l hl => ?_⟩
    obtain ⟨x, ys, hx, hy, e⟩ := hz P hP l hl
    obtain ⟨y, h1, h2⟩ := single_forall (L := IsVacuumQuarkLoop g (consts.after h).nc (l.map vec) (vec P)) hy
    refine ⟨x, y, hx, h1, ?_⟩
    rw [(single_flavour_gauge hk _ _ _ _ _).1, e, h2]
  · refine ⟨z', fun P hP l hl => ?_⟩
    obtain ⟨x, ys, hx, hy, e⟩ := hz' P hP l hl
    obtain ⟨y, h1, h2⟩ := single_forall (L := IsVacuumCrossedQuarkLoop g (consts.after h).nc (l.map vec) (vec P)) hy
    refine ⟨x, y, hx, h1, ?_⟩
    rw [(single_flavour_gauge hk _ _ _ _ _).2, e, h2]

/-! ### Concrete cases -/

/-- In the gauge `ξ = 0` the specification is the one of the Landau gauge. -/
example (pol : List Vec) (P : Vec) (M : ℝ) (x : ℂ) : IsCovariantPolarization 0 pol P M x ↔ IsVacuumPolarization pol P M x := by
  have hp : ∀ (M : ℂ) (Q : Vec), covariantPropagator 0 M Q = (msq Q + M)⁻¹ • projector Q := fun M Q => by
    simp [covariantPropagator]
  have e1 : ∀ (e : Vec) (M : ℂ) (Q : Vec), covariantLoop 0 e P M Q = gluonLoop e P M Q := fun e M Q => by
    rw [covariantLoop, gluonLoop, hp, hp]
    simp only [Matrix.mul_smul, Matrix.smul_mul, trace_smul, smul_eq_mul]
    generalize trace ((threeGluonAt e P Q (-(P + Q)))ᵀ * projector Q * threeGluonAt e P Q (-(P + Q)) * projector (P + Q)) = t
    simp only [div_eq_mul_inv, mul_inv]
    ring
  have e2 : ∀ (e : Vec) (M : ℂ) (Q : Vec), covariantTadpole 0 e M Q = gluonTadpole e M Q := fun e M Q => by
    rw [covariantTadpole, gluonTadpole, hp, neg_div]
    simp only [Matrix.smul_apply, smul_eq_mul, mul_left_comm _ (msq Q + M)⁻¹, ← Finset.mul_sum, div_eq_inv_mul]
  simp only [IsCovariantPolarization, IsVacuumPolarization, e1, e2]

/-- The Feynman gauge, a mass, a momentum, the two transverse polarisations. -/
example : ∃ z : ℂ, ∃ x : ℂ, IsCovariantPolarization 1 ([eT1, eT2].map vec) (vec (momentum 1 2)) (3 ^ 2) x ∧
    ((ym.gluon.dressing_inv (‖momentum 1 2‖ ^ 2 / 3 ^ 2) (-1) 1 : ℝ) : ℂ) = z - 16 * π ^ 2 / 3 * (x / msq (vec (momentum 1 2))) := by
  obtain ⟨z, h⟩ := C89_gluon_vacuum (m := 3) (by norm_num) (-1) 1
  exact ⟨z, h _ (momentum_ne one_ne_zero) _ (polT_real 1 2).2⟩

example : ∃ z : ℂ, ∃ x : ℂ, IsCovariantGhost 1 (vec (momentum 1 2)) (3 ^ 2) x ∧
    ((ghost.dressing_inv (‖momentum 1 2‖ ^ 2 / 3 ^ 2) (-1) 1 : ℝ) : ℂ) = z + 16 * π ^ 2 / 3 * (x / msq (vec (momentum 1 2))) := by
  obtain ⟨z, h⟩ := C89_ghost_vacuum (m := 3) (by norm_num) (-1) 1
  exact ⟨z, h _ (momentum_ne one_ne_zero)⟩

/-- Two flavours, in the Feynman gauge. -/
example (k : consts.Consts ℝ) : ∃ z : ℂ, ∃ (x : ℂ) (ys : List ℂ), IsCovariantPolarization 1 ([eT1, eT2].map vec) (vec (momentum 1 2)) (1 ^ 2) x ∧
    List.Forall₂ (fun q y => IsVacuumQuarkLoop dirac 3 ([eT1, eT2].map vec) (vec (momentum 1 2)) q.2 y) [(2, 1), (1, 3)] ys ∧
    ((qcd.gluon.dressing_inv_w_field_config k (‖momentum 1 2‖ ^ 2 / 1 ^ 2) 0 1 (FieldConfig.new 3 1 [(2, 1), (1, 3)]) : ℝ) : ℂ) =
      z - 16 * π ^ 2 / 3 * ((x + flavours [(2, 1), (1, 3)] ys) / msq (vec (momentum 1 2))) := by
  obtain ⟨z, h⟩ := (C89_vacuum_config dirac_clifford k three_ne_zero (m := 1) one_pos [(2, 1), (1, 3)] (by simp) 0 1).1
  exact ⟨z, h _ (momentum_ne one_ne_zero) _ (polT_real 1 2).2⟩

end Qcd
