import Verif.Spec.VacuumQuark
import Verif.Lemmas.VacuumQuark
import Verif.Props.VacuumGluon
import Verif.Props.QcdVacuum

/-! # C87: the vacuum quark part of the gluon function is the one-loop quark diagram -/

namespace Qcd
open MeasureTheory Set Spec Filter Topology Hyper GluonRadial Matrix
open scoped Real RealInnerProductSpace

variable {g : Fin 4 → Matrix (Fin 4) (Fin 4) ℂ}

/-- The finite part of the quark loop. -/
noncomputable def quarkFinite (nc s M : ℝ) : ℝ := 1 / (16 * π ^ 2 * nc) * (M * KQ (s / M) 0 + 2 / 3 * s * Real.log M)

theorem quark_finite (hg : IsClifford g) (nc : ℝ) {P e : Momentum} (hP : P ≠ 0) (he : ‖e‖ = 1) (ho : (⟪e, P⟫ : ℝ) = 0) {m : ℝ} (hm : 0 < m) :
    IsFinitePart (quarkDiagram g nc (vec e) (vec P) m) ((quarkFinite nc (‖P‖ ^ 2) (m ^ 2) : ℝ) : ℂ) := by
  have hM : 0 < m ^ 2 := by positivity
  have hn : 0 < ‖P‖ := norm_pos_iff.2 hP
  have hs : 0 < ‖P‖ ^ 2 / m ^ 2 := by positivity
  obtain ⟨b1, b2⟩ := ball_quark hP he ho hM
  refine isFinitePart_real (.of_forall fun Q => quark_vec hg nc he ho hm.ne' Q) (fun c => (b1 c).const_mul _)
    (a := 1 / (16 * π ^ 2 * nc)) (b := -(2 / 3 * ‖P‖ ^ 2 / (16 * π ^ 2 * nc)))
    (I := fun R => -(2 / nc) * (π ^ 2 / 2 * (m ^ 2 * (KQ (‖P‖ ^ 2 / m ^ 2) (R ^ 2 / m ^ 2) - KQ (‖P‖ ^ 2 / m ^ 2) 0)))) ?_ ?_
  · filter_upwards [eventually_gt_atTop 0] with R hR
    rw [integral_const_mul, b2 R hR]
  · have h1 : Tendsto (fun R : ℝ => R ^ 2 / m ^ 2) atTop atTop := (tendsto_pow_atTop two_ne_zero).atTop_div_const hM
    have h2 := (((asymq_tendsto hs).comp h1).const_mul (-(m ^ 2) / (16 * π ^ 2 * nc))).add_const (quarkFinite nc (‖P‖ ^ 2) (m ^ 2))
    rw [mul_zero, zero_add] at h2
    refine h2.congr' ?_
    filter_upwards [eventually_gt_atTop 0] with R hR
    have e2 : Real.log (R ^ 2 / m ^ 2) = Real.log (R ^ 2) - Real.log (m ^ 2) := Real.log_div (by positivity) hM.ne'
    simp only [Function.comp_apply, e2, quarkFinite]
    generalize KQ (‖P‖ ^ 2 / m ^ 2) (R ^ 2 / m ^ 2) = k1
    generalize KQ (‖P‖ ^ 2 / m ^ 2) 0 = k2
    generalize Real.log (R ^ 2) = k3
    generalize Real.log (m ^ 2) = k4
    rcases eq_or_ne nc 0 with rfl | hnc
    · simp
    · field_simp
      ring

theorem quark_finite_zero (hg : IsClifford g) (nc : ℝ) {P e : Momentum} (hP : P ≠ 0) (he : ‖e‖ = 1) (ho : (⟪e, P⟫ : ℝ) = 0) {m : ℝ} (hm : 0 < m) :
    IsFinitePart (quarkDiagram g nc (vec e) 0 m) ((-(m ^ 2 / (16 * π ^ 2 * nc)) : ℝ) : ℂ) := by
  have hM : 0 < m ^ 2 := by positivity
  obtain ⟨b1, b2⟩ := ball_quark_zero hP he ho hM
  refine isFinitePart_real (.of_forall fun Q => quark_vec_zero hg nc P he hm.ne' Q) (fun c => (b1 c).const_mul _)
    (a := 1 / (16 * π ^ 2 * nc)) (b := 0)
    (I := fun R => -(2 / nc) * (π ^ 2 / 2 * (m ^ 2 - R ^ 2 - (m ^ 2) ^ 2 / (R ^ 2 + m ^ 2)))) ?_ ?_
  · filter_upwards [eventually_gt_atTop 0] with R hR
    rw [integral_const_mul, b2 R hR]
  · have h1 : Tendsto (fun R : ℝ => (m ^ 2) ^ 2 / (R ^ 2 + m ^ 2)) atTop (𝓝 0) :=
      Tendsto.div_atTop tendsto_const_nhds (tendsto_atTop_add_const_right _ _ (tendsto_pow_atTop two_ne_zero))
    have h2 := (h1.const_mul (1 / (16 * π ^ 2 * nc))).add_const (-(m ^ 2 / (16 * π ^ 2 * nc)))
    rw [mul_zero, zero_add] at h2
    refine h2.congr fun R => ?_
    generalize (m ^ 2) ^ 2 / (R ^ 2 + m ^ 2) = u
    rcases eq_or_ne nc 0 with rfl | hnc
    · simp
    · field_simp
      ring

/-- The closed form of the code. -/
theorem KQ_zero_eq {s : ℝ} (hs : 0 < s) : KQ s 0 = -3 * s * gluon.f_q s - 1 + 2 / 9 * s := by
  rw [KQ_zero hs]
  have r0 := rho_sq hs
  have r1 := rho_pos hs
  have ha : Real.sqrt (s⁻¹ * 4 + 1) = rho s / s := by
    rw [Real.sqrt_eq_iff_mul_self_eq (by positivity) (by positivity)]
    field_simp
    linear_combination -r0
  have hL : Real.log ((rho s / s - 1) / (rho s / s + 1)) = La s 1 * rho s / 2 := by
    have h3 := lt_rho hs
    have h4 : 0 < rho s - s := by linarith
    have h5 : 0 < rho s + s := by linarith
    have hm : 0 < 2 * 1 + s - rho s := rho_lt hs one_pos (by norm_num)
    have hp : 0 < 2 * 1 + s + rho s := by positivity
    rw [La, div_mul_cancel₀ _ r1.ne', ← Real.log_div hm.ne' hp.ne']
    have : (2 * 1 + s - rho s) / (2 * 1 + s + rho s) = ((rho s / s - 1) / (rho s / s + 1)) ^ 2 := by
      rw [show rho s / s - 1 = (rho s - s) / s by field_simp, show rho s / s + 1 = (rho s + s) / s by field_simp, div_div_div_cancel_right₀ hs.ne', div_pow,
        div_eq_div_iff hp.ne' (by positivity)]
      linear_combination (-2 * rho s) * r0
    rw [this, Real.log_pow]
    push_cast
    ring
  simp only [gluon.f_q, ln_real, sqrt_real, ofR_real]
  rw [ha, hL]
  have e : (-s⁻¹ + 1 / 2) * (rho s / s) * (La s 1 * rho s / 2) = (-s⁻¹ + 1 / 2) * (s + 4) * La s 1 / 2 := by
    field_simp
    linear_combination (-2 + s) * La s 1 * r0
  rw [e]
  generalize La s 1 = L
  field_simp
  ring

/-- The value of the subtracted quark loop. -/
noncomputable def quarkValue (nc s m : ℝ) : ℝ := s / (16 * π ^ 2 * nc) * (-3 * gluon.f_q (s / m ^ 2) + 2 / 3 * Real.log (m ^ 2) + 2 / 9)

theorem quark_loop (hg : IsClifford g) (nc : ℝ) {P : Momentum} (hP : P ≠ 0) {l : List Momentum} (hl : Polarisations P l) {m : ℝ} (hm : 0 < m) :
    IsVacuumQuarkLoop g nc (l.map vec) (vec P) m ((quarkValue nc (‖P‖ ^ 2) m : ℝ) : ℂ) := by
  have hn : 0 < ‖P‖ := norm_pos_iff.2 hP
  have h0 : l.map vec ≠ [] := by simpa using hl.1
  refine ⟨_, _, IsFinitePart.average (F := fun e => quarkDiagram g nc e (vec P) m) (x := ((quarkFinite nc (‖P‖ ^ 2) (m ^ 2) : ℝ) : ℂ)) h0 fun e he => ?_,
    IsFinitePart.average (F := fun e => quarkDiagram g nc e 0 m) (x := ((-(m ^ 2 / (16 * π ^ 2 * nc)) : ℝ) : ℂ)) h0 fun e he => ?_, ?_⟩
  · obtain ⟨e', h1, rfl⟩ := List.mem_map.1 he
    exact quark_finite hg nc hP (hl.2 e' h1).1 (hl.2 e' h1).2 hm
  · obtain ⟨e', h1, rfl⟩ := List.mem_map.1 he
    exact quark_finite_zero hg nc hP (hl.2 e' h1).1 (hl.2 e' h1).2 hm
  · rw [← Complex.ofReal_sub, quarkFinite, KQ_zero_eq (by positivity), quarkValue]
    congr 1
    generalize gluon.f_q (‖P‖ ^ 2 / m ^ 2) = f
    generalize Real.log (m ^ 2) = L
    rcases eq_or_ne nc 0 with rfl | hnc
    · simp
    · field_simp
      ring

/-- The value of the quark loop is determined by the diagram. -/
theorem C87_unique {nc : ℝ} {pol : List Vec} {P : Vec} {m : ℝ} {x y : ℂ} (hx : IsVacuumQuarkLoop g nc pol P m x) (hy : IsVacuumQuarkLoop g nc pol P m y) :
    x = y := by
  obtain ⟨a, b, h1, h2, rfl⟩ := hx
  obtain ⟨a', b', h1', h2', rfl⟩ := hy
  rw [h1.unique h1', h2.unique h2']

/-- **C87**: up to a constant, which depends on the mass of the quark only, the quark function in vacuum is minus the finite part of the
one-loop quark diagram, subtracted at zero momentum, divided by the momentum squared, for every momentum and for all polarisations
orthogonal to it. -/
theorem C87_quark_loop (hg : IsClifford g) {nc : ℝ} (hnc : nc ≠ 0) {m : ℝ} (hm : 0 < m) :
    ∃ z : ℂ, ∀ P : Momentum, P ≠ 0 → ∀ l : List Momentum, Polarisations P l →
      ∃ x : ℂ, IsVacuumQuarkLoop g nc (l.map vec) (vec P) m x ∧
        ((gluon.f_q (‖P‖ ^ 2 / m ^ 2) : ℝ) : ℂ) / nc = z - 16 * π ^ 2 / 3 * (x / msq (vec P)) := by
  refine ⟨((1 / (3 * nc) * (2 / 3 * Real.log (m ^ 2) + 2 / 9) : ℝ) : ℂ), fun P hP l hl => ⟨_, quark_loop hg nc hP hl hm, ?_⟩⟩
  have hnp : (‖P‖ : ℂ) ≠ 0 := by exact_mod_cast norm_ne_zero_iff.2 hP
  have hpi : (π : ℂ) ≠ 0 := by exact_mod_cast Real.pi_ne_zero
  have hc : (nc : ℂ) ≠ 0 := by exact_mod_cast hnc
  rw [quarkValue, vec_msq]
  generalize gluon.f_q (‖P‖ ^ 2 / m ^ 2) = f
  push_cast
  field_simp
  ring

/-- Derivative of the value with respect to the mass. -/
theorem quarkValue_insertion (nc : ℝ) {s m : ℝ} (hs : 0 < s) (hm : 0 < m) :
    HasOneInsertion (fun m => ((quarkValue nc s m : ℝ) : ℂ)) m
      ((s / (16 * π ^ 2 * nc) * (-3 * gluon.f_q_crossed (s / m ^ 2) + 2 / 3 * Real.log (m ^ 2) + 2 / 9 - 4 / 3) : ℝ) : ℂ) := by
  obtain ⟨h1, h2⟩ := C23_real (s / m ^ 2) (by positivity)
  have v : HasDerivAt (fun m : ℝ => s / m ^ 2) (-(2 * s / m ^ 3)) m := by
    have := ((hasDerivAt_pow 2 m).fun_inv (by positivity)).const_mul s
    refine (this.congr_deriv ?_).congr_of_eventuallyEq (.of_forall fun x => ?_)
    · push_cast
      field_simp
    · simp [div_eq_mul_inv]
  have l : HasDerivAt (fun m : ℝ => Real.log (m ^ 2)) (2 * m / m ^ 2) m := by
    have := (hasDerivAt_pow 2 m).log (by positivity)
    simpa using this
  have k := ((((h1.hasDerivAt.comp m v).const_mul (-3)).fun_add (l.const_mul (2 / 3))).add_const (2 / 9)).const_mul (s / (16 * π ^ 2 * nc))
  refine ⟨_, HasDerivAt.ofReal_comp (f := fun m => quarkValue nc s m) k, ?_⟩
  rw [h2]
  simp only [quarkValue, Function.comp_apply]
  generalize deriv gluon.f_q (s / m ^ 2) = d
  generalize gluon.f_q (s / m ^ 2) = f
  generalize Real.log (m ^ 2) = L
  rw [← Complex.ofReal_mul, ← Complex.ofReal_sub]
  congr 1
  rcases eq_or_ne nc 0 with rfl | hnc
  · simp
  · field_simp
    ring

theorem crossed_loop (hg : IsClifford g) (nc : ℝ) {P : Momentum} (hP : P ≠ 0) {l : List Momentum} (hl : Polarisations P l) {m : ℝ} (hm : 0 < m) :
    IsVacuumCrossedQuarkLoop g nc (l.map vec) (vec P) m ((‖P‖ ^ 2 / (16 * π ^ 2 * nc) * (-3 * gluon.f_q_crossed (‖P‖ ^ 2 / m ^ 2)
      + 2 / 3 * Real.log (m ^ 2) + 2 / 9 - 4 / 3) : ℝ) : ℂ) := by
  have hn : 0 < ‖P‖ := norm_pos_iff.2 hP
  exact ⟨_, fun m hm => quark_loop hg nc hP hl hm, quarkValue_insertion nc (by positivity) hm⟩

/-- **C87**: the crossed quark function is the same with at most one insertion of the mass of the quark. -/
theorem C87_crossed_quark_loop (hg : IsClifford g) {nc : ℝ} (hnc : nc ≠ 0) {m : ℝ} (hm : 0 < m) :
    ∃ z : ℂ, ∀ P : Momentum, P ≠ 0 → ∀ l : List Momentum, Polarisations P l →
      ∃ x : ℂ, IsVacuumCrossedQuarkLoop g nc (l.map vec) (vec P) m x ∧
        ((gluon.f_q_crossed (‖P‖ ^ 2 / m ^ 2) : ℝ) : ℂ) / nc = z - 16 * π ^ 2 / 3 * (x / msq (vec P)) := by
  refine ⟨((1 / (3 * nc) * (2 / 3 * Real.log (m ^ 2) + 2 / 9 - 4 / 3) : ℝ) : ℂ), fun P hP l hl => ⟨_, crossed_loop hg nc hP hl hm, ?_⟩⟩
  have hnp : (‖P‖ : ℂ) ≠ 0 := by exact_mod_cast norm_ne_zero_iff.2 hP
  have hpi : (π : ℂ) ≠ 0 := by exact_mod_cast Real.pi_ne_zero
  have hc : (nc : ℂ) ≠ 0 := by exact_mod_cast hnc
  rw [vec_msq]
  generalize gluon.f_q_crossed (‖P‖ ^ 2 / m ^ 2) = f
  push_cast
  field_simp
  ring

/-! ### Insertions of the mass are derivatives -/

/-- **C87**: one insertion of the mass in the lines of the quark loop is minus the mass times the derivative with respect to it. -/
theorem C87_insertion (hg : IsClifford g) (nc : ℝ) (e P : Vec) {m : ℝ} {Q : Vec} (hx : msq Q + (m : ℂ) ^ 2 ≠ 0) (hy : msq (P + Q) + (m : ℂ) ^ 2 ≠ 0) :
    ∃ d : ℂ, HasDerivAt (fun m => quarkDiagram g nc e P m Q) d m ∧ quarkDiagramInserted g nc e P m Q = -(m * d) := by
  obtain ⟨E, hE⟩ : ∃ E, E = slash g e := ⟨_, rfl⟩
  obtain ⟨A, hA⟩ : ∃ A, A = slash g Q := ⟨_, rfl⟩
  obtain ⟨B, hB⟩ : ∃ B, B = slash g (P + Q) := ⟨_, rfl⟩
  have hAA : A * A = msq Q • 1 := by rw [hA, slash_sq hg]; rfl
  have hBB : B * B = msq (P + Q) • 1 := by rw [hB, slash_sq hg]; rfl
  -- the trace as a polynomial in the mass
  have tr : ∀ (a b c d : ℂ), trace (E * (a • 1 - b • A) * E * (c • 1 - d • B)) =
      a * c * trace (E * E) - a * d * trace (E * E * B) - b * c * trace (E * A * E) + b * d * trace (E * A * E * B) := fun a b c d => by
    simp only [mul_sub, sub_mul, mul_smul_comm, smul_mul_assoc, mul_one, trace_sub, trace_smul, smul_eq_mul]
    ring
  have val : ∀ m : ℝ, msq Q + (m : ℂ) ^ 2 ≠ 0 → msq (P + Q) + (m : ℂ) ^ 2 ≠ 0 → quarkDiagram g nc e P m Q =
      1 / (2 * nc) * ((msq Q + (m : ℂ) ^ 2)⁻¹ * (msq (P + Q) + (m : ℂ) ^ 2)⁻¹ * ((m : ℂ) ^ 2 * trace (E * E) - m * Complex.I * (trace (E * E * B)
        + trace (E * A * E)) - trace (E * A * E * B))) := fun m hx hy => by
    rw [quarkDiagram, quarkPropagator_eq hg hx, quarkPropagator_eq hg hy, ← hE, ← hA, ← hB]
    simp only [mul_smul_comm, smul_mul_assoc, trace_smul, smul_eq_mul, tr]
    linear_combination (1 / (2 * nc)) * (msq Q + (m : ℂ) ^ 2)⁻¹ * (msq (P + Q) + (m : ℂ) ^ 2)⁻¹ * trace (E * A * E * B) * Complex.I_sq
  have sq : ∀ {X : Vec} {A : Matrix (Fin 4) (Fin 4) ℂ}, A = slash g X → A * A = msq X • 1 → msq X + (m : ℂ) ^ 2 ≠ 0 →
      quarkPropagator g m X * ((m : ℂ) • 1) * quarkPropagator g m X =
        (m * (msq X + (m : ℂ) ^ 2)⁻¹ ^ 2) • (((m : ℂ) ^ 2 - msq X) • 1 - (2 * m * Complex.I) • A) := fun {X A} hA hAA hx => by
    rw [quarkPropagator_eq hg hx, ← hA]
    have h1 : ((m : ℂ) • (1 : Matrix (Fin 4) (Fin 4) ℂ) - Complex.I • A) * ((m : ℂ) • 1 - Complex.I • A) = ((m : ℂ) ^ 2 - msq X) • 1 - (2 * m * Complex.I) • A := by
      rw [mul_sub, sub_mul, sub_mul]
      simp only [smul_mul_smul_comm, hAA, mul_one, one_mul, Complex.I_mul_I]
      module
    simp only [smul_mul_assoc, mul_smul_comm, mul_one, h1, smul_smul]
    congr 1
    ring
  have hd : ∀ {x : ℂ}, x + (m : ℂ) ^ 2 ≠ 0 → HasDerivAt (fun m : ℝ => (x + (m : ℂ) ^ 2)⁻¹) (-(2 * m) / (x + (m : ℂ) ^ 2) ^ 2) m := fun {x} hx => by
    have h1 : HasDerivAt (fun m : ℝ => (m : ℂ)) 1 m := Complex.ofRealCLM.hasDerivAt
    have h2 := ((h1.fun_pow 2).const_add x).fun_inv hx
    exact h2.congr_deriv (by simp)
  have h1 : HasDerivAt (fun m : ℝ => (m : ℂ)) 1 m := Complex.ofRealCLM.hasDerivAt
  have dd := (((hd hx).fun_mul (hd hy)).fun_mul ((((h1.fun_pow 2).mul_const (trace (E * E))).fun_sub ((h1.mul_const Complex.I).mul_const
    (trace (E * E * B) + trace (E * A * E)))).sub_const (trace (E * A * E * B)))).const_mul (1 / (2 * (nc : ℂ)))
  refine ⟨_, dd.congr_of_eventuallyEq ?_, ?_⟩
  · have c : ∀ x : ℂ, Continuous fun m : ℝ => x + (m : ℂ) ^ 2 := fun x => by fun_prop
    filter_upwards [(c (msq Q)).continuousAt.eventually_ne hx, (c (msq (P + Q))).continuousAt.eventually_ne hy] with m' hx' hy'
    exact val m' hx' hy'
  · rw [quarkDiagramInserted, sq hA hAA hx, sq hB hBB hy, quarkPropagator_eq hg hx, quarkPropagator_eq hg hy, ← hE, ← hA, ← hB]
    simp only [mul_smul_comm, smul_mul_assoc, trace_smul, smul_eq_mul, tr]
    generalize trace (E * A * E * B) = t1
    generalize trace (E * A * E) = t2
    generalize trace (E * E * B) = t3
    generalize trace (E * E) = t4
    generalize msq Q = x at *
    generalize msq (P + Q) = y at *
    have hm2 : (m : ℂ) ^ 2 = (x + (m : ℂ) ^ 2) - x := by ring
    simp only [Nat.cast_ofNat, Nat.add_one_sub_one, pow_one, mul_one, one_mul]
    rcases eq_or_ne (nc : ℂ) 0 with h0 | h0
    · simp [h0]
    · field_simp
      ring_nf
      simp only [Complex.I_sq]
      ring

/-! ### Concrete cases -/

/-- Dirac matrices exist: see C84. The hypotheses are met by any momentum, for instance. -/
example (hg : IsClifford g) : ∃ x : ℂ, IsVacuumQuarkLoop g 3 ([eL 1 2, eT1].map vec) (vec (momentum 1 2)) (1 / 2) x :=
  ⟨_, quark_loop hg 3 (momentum_ne one_ne_zero) ⟨by simp, fun e he => by
    rcases List.mem_cons.1 he with rfl | h
    · exact (polL_real one_ne_zero 2).2.2 _ (by simp)
    · exact (polT_real 1 2).2.2 e (by simp at h; simp [h])⟩ (by norm_num)⟩

end Qcd
