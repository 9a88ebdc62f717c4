import Verif.Lemmas.VacuumGluon
import Verif.Lemmas.GluonMatch
import Verif.Lemmas.FinitePart
import Verif.Props.VacuumGhost

/-! # C86: the vacuum gluon function is the sum of the one-loop diagrams of the massive expansion -/

namespace Qcd
open MeasureTheory Set Spec Filter Topology Hyper GluonRadial
open scoped Real RealInnerProductSpace

/-! ### Finite parts of the diagrams -/

/-- The finite part of the gluon loop. -/
noncomputable def glueFinite (s M : ℝ) : ℝ := 1 / (384 * π ^ 2) * (M * dd (s / M) - (50 * s - 72 * M) * Real.log M)

theorem gluon_finite {P e : Momentum} (hP : P ≠ 0) (he : ‖e‖ = 1) (ho : (⟪e, P⟫ : ℝ) = 0) {M : ℝ} (hM : 0 < M) :
    IsFinitePart (gluonLoop (vec e) (vec P) M) ((glueFinite (‖P‖ ^ 2) M : ℝ) : ℂ) := by
  have hn : 0 < ‖P‖ := norm_pos_iff.2 hP
  have hs : 0 < ‖P‖ ^ 2 / M := by positivity
  refine isFinitePart_real (f := scalar (glF M (‖P‖ ^ 2)) e P) ((ae_ne P).mono fun Q hQ => gluon_vec he ho M hQ.1 hQ.2)
    (fun c => (ball_gluon hP he ho hM c).1) (a := 36 / (384 * π ^ 2)) (b := (50 * ‖P‖ ^ 2 - 72 * M) / (384 * π ^ 2))
    (I := fun R => 4 * π * (M * (π / 96 * (Khi (‖P‖ ^ 2 / M) (R ^ 2 / M) + F1 (‖P‖ ^ 2 / M) (sg (‖P‖ ^ 2 / M) (R ^ 2 / M)) - Khi (‖P‖ ^ 2 / M) (‖P‖ ^ 2 / M)
      + Klo (‖P‖ ^ 2 / M) (‖P‖ ^ 2 / M) - F1 (‖P‖ ^ 2 / M) 1)))) ?_ ?_
  · filter_upwards [eventually_gt_atTop ‖P‖] with R hR
    rw [(ball_gluon hP he ho hM R).2, gluon_radial_scale hn hM hR]
  · have h1 : Tendsto (fun R : ℝ => R ^ 2 / M) atTop atTop := (tendsto_pow_atTop two_ne_zero).atTop_div_const hM
    have h2 := ((asym_tendsto hs).comp h1).add_const (-Khi (‖P‖ ^ 2 / M) (‖P‖ ^ 2 / M) + Klo (‖P‖ ^ 2 / M) (‖P‖ ^ 2 / M) - F1 (‖P‖ ^ 2 / M) 1)
    have h3 := ((h2.const_mul M).sub_const ((50 * ‖P‖ ^ 2 - 72 * M) * Real.log M)).const_mul (1 / (384 * π ^ 2))
    have e1 : 1 / (384 * π ^ 2) * (M * (3 / 2 * (‖P‖ ^ 2 / M - 1) ^ 2 - 3 * (‖P‖ ^ 2 / M) + (29 * (‖P‖ ^ 2 / M) - 36) * (‖P‖ ^ 2 / M - 1)
        + (-Khi (‖P‖ ^ 2 / M) (‖P‖ ^ 2 / M) + Klo (‖P‖ ^ 2 / M) (‖P‖ ^ 2 / M) - F1 (‖P‖ ^ 2 / M) 1)) - (50 * ‖P‖ ^ 2 - 72 * M) * Real.log M) =
        glueFinite (‖P‖ ^ 2) M := by
      rw [glueFinite, dd]
      ring
    rw [e1] at h3
    refine h3.congr' ?_
    filter_upwards [eventually_gt_atTop 0] with R hR
    have e2 : Real.log (R ^ 2 / M) = Real.log (R ^ 2) - Real.log M := Real.log_div (by positivity) hM.ne'
    simp only [Function.comp_apply, e2]
    generalize Khi (‖P‖ ^ 2 / M) (R ^ 2 / M) = k1
    generalize F1 (‖P‖ ^ 2 / M) (sg (‖P‖ ^ 2 / M) (R ^ 2 / M)) = k2
    generalize Khi (‖P‖ ^ 2 / M) (‖P‖ ^ 2 / M) = k3
    generalize Klo (‖P‖ ^ 2 / M) (‖P‖ ^ 2 / M) = k4
    generalize F1 (‖P‖ ^ 2 / M) 1 = k5
    field_simp
    ring

theorem ghost_loop_finite {P e : Momentum} (hP : P ≠ 0) (he : ‖e‖ = 1) (ho : (⟪e, P⟫ : ℝ) = 0) :
    IsFinitePart (ghostLoop (vec e) (vec P)) ((-(1 / (192 * π ^ 2) * ‖P‖ ^ 2 * (Real.log (‖P‖ ^ 2) - 11 / 6)) : ℝ) : ℂ) := by
  have hn : 0 < ‖P‖ := norm_pos_iff.2 hP
  refine isFinitePart_real (f := fun Q => -scalar ghF e P Q) (.of_forall fun Q => ghost_loop_vec ho Q)
    (fun c => (ball_ghost_loop hP he ho c).1.neg) (a := -(3 / (192 * π ^ 2))) (b := ‖P‖ ^ 2 / (192 * π ^ 2))
    (I := fun R => -(4 * π * (π / 48 * (3 * R ^ 2 - ‖P‖ ^ 2 * Real.log (R ^ 2) + ‖P‖ ^ 2 * Real.log (‖P‖ ^ 2) - 11 / 6 * ‖P‖ ^ 2)))) ?_ ?_
  · filter_upwards [eventually_gt_atTop ‖P‖] with R hR
    rw [integral_neg, (ball_ghost_loop hP he ho R).2, ghost_loop_radial hn hR]
  · refine tendsto_const_nhds.congr fun R => ?_
    field_simp
    ring

theorem log_ratio {M : ℝ} (hM : 0 < M) : Tendsto (fun R : ℝ => Real.log (R ^ 2) - Real.log (R ^ 2 + M)) atTop (𝓝 0) := by
  have h3 : Tendsto (fun R : ℝ => 1 - M / (R ^ 2 + M)) atTop (𝓝 (1 - 0)) := by
    refine tendsto_const_nhds.sub (Tendsto.div_atTop tendsto_const_nhds ?_)
    exact tendsto_atTop_add_const_right _ _ (tendsto_pow_atTop two_ne_zero)
  have h4 := (Real.continuousAt_log (by norm_num : (1 - 0 : ℝ) ≠ 0)).tendsto.comp h3
  rw [sub_zero, Real.log_one] at h4
  refine h4.congr' ?_
  filter_upwards [eventually_gt_atTop 0] with R hR
  have h5 : R ^ 2 + M ≠ 0 := by positivity
  rw [Function.comp_apply, ← Real.log_div (by positivity) h5]
  congr 1
  field_simp
  ring

theorem tadpole_finite {P e : Momentum} (hP : P ≠ 0) (he : ‖e‖ = 1) (ho : (⟪e, P⟫ : ℝ) = 0) {M : ℝ} (hM : 0 < M) :
    IsFinitePart (gluonTadpole (vec e) M) ((-(9 / (64 * π ^ 2) * (M * Real.log M)) : ℝ) : ℂ) := by
  refine isFinitePart_real (f := fun Q => -scalar (tdF M) e P Q) ((ae_ne P).mono fun Q hQ => tadpole_vec P he M hQ.1)
    (fun c => (ball_tadpole hP he ho hM c).1.neg) (a := -(9 / (64 * π ^ 2))) (b := 9 * M / (64 * π ^ 2))
    (I := fun R => -(4 * π * (9 * π / 16 * (R ^ 2 - M * Real.log (R ^ 2 + M) + M * Real.log M)))) ?_ ?_
  · filter_upwards [eventually_gt_atTop 0] with R hR
    rw [integral_neg, (ball_tadpole hP he ho hM R).2, tadpole_radial hM hR]
  · have h := ((log_ratio hM).const_mul (-(9 * M / (64 * π ^ 2)))).add_const (-(9 / (64 * π ^ 2) * (M * Real.log M)))
    rw [mul_zero, zero_add] at h
    refine h.congr fun R => ?_
    field_simp
    ring

/-! ### Insertions -/

theorem glueFinite_insertion {s M : ℝ} (hs : 0 < s) (hM : 0 < M) : ∃ d, HasDerivAt (glueFinite s) d M ∧
    glueFinite s M - M * d = s / (384 * π ^ 2) * (-72 * gluon.f (s / M) - 27 * (M / s) + 2 * Real.log s - 52 * Real.log M + 251 / 3) := by
  obtain ⟨d, hd, hf⟩ := dd_deriv (s := s / M) (by positivity)
  have i : HasDerivAt (fun M : ℝ => M) 1 M := hasDerivAt_id M
  have v : HasDerivAt (fun M : ℝ => s / M) (-(s / M ^ 2)) M := by
    have := (hasDerivAt_inv hM.ne').const_mul s
    refine (this.congr_deriv (by field_simp)).congr_of_eventuallyEq (.of_forall fun x => ?_)
    simp [div_eq_mul_inv]
  have l : HasDerivAt (fun M => Real.log M) M⁻¹ M := Real.hasDerivAt_log hM.ne'
  have c := hd.comp M v
  have k := ((i.fun_mul c).fun_sub (((i.const_mul 72).const_sub (50 * s)).fun_mul l)).const_mul (1 / (384 * π ^ 2))
  refine ⟨_, k, ?_⟩
  have hd' : d = -72 * gluon.f (s / M) + 45 / (s / M) + 2 * Real.log (s / M) + 101 / 3 := by rw [hf]; ring
  rw [hd', glueFinite, Function.comp_apply, Real.log_div hs.ne' hM.ne']
  generalize gluon.f (s / M) = f
  generalize dd (s / M) = g
  generalize Real.log s = a
  generalize Real.log M = b
  field_simp
  ring

theorem tadpole_insertions {M : ℝ} (hM : 0 < M) :
    HasTwoInsertions (fun M => ((-(9 / (64 * π ^ 2) * (M * Real.log M)) : ℝ) : ℂ)) M ((9 / (128 * π ^ 2) * M : ℝ) : ℂ) := by
  refine ⟨fun M => ((-(9 / (64 * π ^ 2) * (Real.log M + 1)) : ℝ) : ℂ), ((-(9 / (64 * π ^ 2) * M⁻¹) : ℝ) : ℂ), fun M' hM' => ?_, ?_, ?_⟩
  · have := (((hasDerivAt_id M').mul (Real.hasDerivAt_log hM'.ne')).const_mul (9 / (64 * π ^ 2))).neg
    refine HasDerivAt.ofReal_comp (f := fun M => -(9 / (64 * π ^ 2) * (M * Real.log M))) (this.congr_deriv ?_)
    simp [mul_inv_cancel₀ hM'.ne']
  · exact HasDerivAt.ofReal_comp (f := fun M => -(9 / (64 * π ^ 2) * (Real.log M + 1))) ((((Real.hasDerivAt_log hM.ne').add_const 1).const_mul _).neg)
  · have hpi : (π : ℂ) ≠ 0 := by exact_mod_cast Real.pi_ne_zero
    have hMc : (M : ℂ) ≠ 0 := by exact_mod_cast hM.ne'
    push_cast
    field_simp
    ring

/-! ### The self-energy -/

/-- The finite part of the self-energy. -/
theorem vacuum_polarization {P : Momentum} (hP : P ≠ 0) {l : List Momentum} (hl : Polarisations P l) {M : ℝ} (hM : 0 < M) :
    IsVacuumPolarization (l.map vec) (vec P) M
      ((‖P‖ ^ 2 / (16 * π ^ 2) * (-3 * gluon.f (‖P‖ ^ 2 / M) - 13 / 6 * Real.log M + 262 / 72) : ℝ) : ℂ) := by
  have hn : 0 < ‖P‖ := norm_pos_iff.2 hP
  obtain ⟨d, hd, e⟩ := glueFinite_insertion (s := ‖P‖ ^ 2) (M := M) (by positivity) hM
  have h0 : l.map vec ≠ [] := by simpa using hl.1
  have hall : ∀ e ∈ l.map vec, ∃ e' ∈ l, vec e' = e := fun e he => List.mem_map.1 he
  refine ⟨_, _, _, ((-(1 / (192 * π ^ 2) * ‖P‖ ^ 2 * (Real.log (‖P‖ ^ 2) - 11 / 6)) : ℝ) : ℂ), _,
    fun M' hM' => IsFinitePart.average (F := fun e => gluonLoop e (vec P) M') (x := ((glueFinite (‖P‖ ^ 2) M' : ℝ) : ℂ)) h0 fun e he => ?_,
    IsFinitePart.average (F := fun e => ghostLoop e (vec P)) h0 fun e he => ?_,
    fun M' hM' => IsFinitePart.average (F := fun e => gluonTadpole e M') (x := ((-(9 / (64 * π ^ 2) * (M' * Real.log M')) : ℝ) : ℂ)) h0 fun e he => ?_,
    ⟨_, hd.ofReal_comp, rfl⟩, tadpole_insertions hM, ?_⟩
  · obtain ⟨e', h1, rfl⟩ := hall e he
    exact gluon_finite hP (hl.2 e' h1).1 (hl.2 e' h1).2 hM'
  · obtain ⟨e', h1, rfl⟩ := hall e he
    exact ghost_loop_finite hP (hl.2 e' h1).1 (hl.2 e' h1).2
  · obtain ⟨e', h1, rfl⟩ := hall e he
    exact tadpole_finite hP (hl.2 e' h1).1 (hl.2 e' h1).2 hM'
  · rw [show ((glueFinite (‖P‖ ^ 2) M : ℝ) : ℂ) - (M : ℂ) * (d : ℂ) = ((glueFinite (‖P‖ ^ 2) M - M * d : ℝ) : ℂ) by push_cast; ring, e]
    rw [← Complex.ofReal_add, ← Complex.ofReal_add]
    congr 1
    generalize gluon.f (‖P‖ ^ 2 / M) = f
    generalize Real.log (‖P‖ ^ 2) = a
    field_simp
    ring

/-- The value of the self-energy is determined by the diagrams. -/
theorem C86_unique {pol : List Vec} {P : Vec} {M : ℝ} (hM : 0 < M) {x y : ℂ} (hx : IsVacuumPolarization pol P M x) (hy : IsVacuumPolarization pol P M y) : x = y := by
  obtain ⟨D, E, g, h, t, h1, h2, h3, ⟨d, hd, rfl⟩, ⟨d1, d2, hd1, hd2, rfl⟩, rfl⟩ := hx
  obtain ⟨D', E', g', h', t', h1', h2', h3', ⟨d', hd', rfl⟩, ⟨d1', d2', hd1', hd2', rfl⟩, rfl⟩ := hy
  have eD : ∀ M, 0 < M → D M = D' M := fun M hM => (h1 M hM).unique (h1' M hM)
  have eE : ∀ M, 0 < M → E M = E' M := fun M hM => (h3 M hM).unique (h3' M hM)
  have near : ∀ {f f' : ℝ → ℂ} {M : ℝ}, 0 < M → (∀ M, 0 < M → f M = f' M) → f =ᶠ[𝓝 M] f' := fun hM h => by
    filter_upwards [lt_mem_nhds hM] with x hx using h x hx
  have e1 : d = d' := (hd.congr_of_eventuallyEq (near hM fun M hM => (eD M hM).symm)).unique hd'
  have e2 : ∀ M, 0 < M → d1 M = d1' M := fun M hM => ((hd1 M hM).congr_of_eventuallyEq (near hM fun M hM => (eE M hM).symm)).unique (hd1' M hM)
  have e3 : d2 = d2' := (hd2.congr_of_eventuallyEq (near hM fun M hM => (e2 M hM).symm)).unique hd2'
  rw [eD M hM, eE M hM, e1, e2 M hM, e3, h2.unique h2']

/-- **C86**: up to a constant, which depends on the mass and on the renormalisation condition only, the inverse dressing function of the
gluon in vacuum is minus the finite part of the one-loop self-energy with at most one insertion in loops and two in the tadpole, divided
by the momentum squared, for every momentum and for all polarisations orthogonal to it. -/
theorem C86_gluon_vacuum {m : ℝ} (hm : 0 < m) (f0 : ℝ) :
    ∃ z : ℂ, ∀ P : Momentum, P ≠ 0 → ∀ l : List Momentum, Polarisations P l →
      ∃ x : ℂ, IsVacuumPolarization (l.map vec) (vec P) (m ^ 2) x ∧
        ((ym.gluon.dressing_inv_landau (‖P‖ ^ 2 / m ^ 2) f0 : ℝ) : ℂ) = z - 16 * π ^ 2 / 3 * (x / msq (vec P)) := by
  refine ⟨((f0 - 13 / 18 * Real.log (m ^ 2) + 262 / 216 : ℝ) : ℂ), fun P hP l hl => ⟨_, vacuum_polarization hP hl (by positivity), ?_⟩⟩
  have hn : ‖P‖ ≠ 0 := norm_ne_zero_iff.2 hP
  have e : ym.gluon.dressing_inv_landau (‖P‖ ^ 2 / m ^ 2) f0 = gluon.f (‖P‖ ^ 2 / m ^ 2) + f0 := rfl
  rw [e, vec_msq]
  generalize gluon.f (‖P‖ ^ 2 / m ^ 2) = f
  have hpi : (π : ℂ) ≠ 0 := by exact_mod_cast Real.pi_ne_zero
  have hnc : (‖P‖ : ℂ) ≠ 0 := by exact_mod_cast hn
  push_cast
  field_simp
  ring

/-! ### The same for the ghost -/

theorem ghost_finite {P : Momentum} (hP : P ≠ 0) {M : ℝ} (hM : 0 < M) :
    IsFinitePart (ghostSelfEnergy (vec P) M) ((-(‖P‖ ^ 2 / (64 * π ^ 2) * phi (‖P‖ ^ 2) M) : ℝ) : ℂ) := by
  have hn : 0 < ‖P‖ := norm_pos_iff.2 hP
  have hv : ∀ Q : Momentum, ghostSelfEnergy (vec P) M (vec Q) = ((-(‖P‖ ^ 2 * gh P M Q) : ℝ) : ℂ) := fun Q => by
    have h := ghost_vec hP M Q
    have hnc : ((‖P‖ ^ 2 : ℝ) : ℂ) ≠ 0 := by exact_mod_cast (by positivity : ‖P‖ ^ 2 ≠ 0)
    rw [vec_msq, div_eq_iff hnc] at h
    rw [h]
    push_cast
    ring
  refine isFinitePart_real (f := fun Q => -(‖P‖ ^ 2 * gh P M Q)) (.of_forall hv) (fun c => ((ball_gh hP hM c).1.const_mul _).neg) (a := 0)
    (b := -(3 * ‖P‖ ^ 2 / (64 * π ^ 2))) (I := fun R => -(‖P‖ ^ 2 * (4 * π * (π / 16 * (phi (‖P‖ ^ 2) M + (3 * Real.log (R ^ 2 + M)
      - ‖P‖ ^ 2 / M * (Real.log (R ^ 2) - Real.log (R ^ 2 + M)))))))) ?_ ?_
  · filter_upwards [eventually_gt_atTop ‖P‖] with R hR
    rw [integral_neg, integral_const_mul, (ball_gh hP hM R).2, radial hn hM hR]
  · have h := ((log_ratio hM).const_mul (‖P‖ ^ 2 / (64 * π ^ 2) * (3 + ‖P‖ ^ 2 / M))).add_const (-(‖P‖ ^ 2 / (64 * π ^ 2) * phi (‖P‖ ^ 2) M))
    rw [mul_zero, zero_add] at h
    refine h.congr fun R => ?_
    field_simp
    ring

/-- **C86**: up to a constant, which depends on the mass and on the renormalisation condition only, the inverse dressing function of the
ghost in vacuum is the finite part of the one-loop self-energy with at most one insertion, divided by the momentum squared. -/
theorem C86_ghost_vacuum {m : ℝ} (hm : 0 < m) (g0 : ℝ) :
    ∃ z : ℂ, ∀ P : Momentum, P ≠ 0 → ∃ (D : ℝ → ℂ) (x : ℂ),
      IsFiniteFamily (fun M Q => ghostSelfEnergy (vec P) M Q) D ∧ HasOneInsertion D (m ^ 2) x ∧
        ((ghost.dressing_inv_landau (‖P‖ ^ 2 / m ^ 2) g0 : ℝ) : ℂ) = z + 16 * π ^ 2 / 3 * (x / msq (vec P)) := by
  refine ⟨((g0 - 1 / 4 * Real.log (m ^ 2) + 11 / 24 : ℝ) : ℂ), fun P hP => ?_⟩
  have hn : ‖P‖ ≠ 0 := norm_ne_zero_iff.2 hP
  obtain ⟨d, hd, e⟩ := phi_deriv (s := ‖P‖ ^ 2) (M := m ^ 2) (by positivity) (by positivity)
  refine ⟨fun M => ((-(‖P‖ ^ 2 / (64 * π ^ 2) * phi (‖P‖ ^ 2) M) : ℝ) : ℂ), _, fun M hM => ghost_finite hP hM,
    ⟨_, HasDerivAt.ofReal_comp (f := fun M => -(‖P‖ ^ 2 / (64 * π ^ 2) * phi (‖P‖ ^ 2) M)) (hd.const_mul _).neg, rfl⟩, ?_⟩
  have e1 : ghost.dressing_inv_landau (‖P‖ ^ 2 / m ^ 2) g0 = ghost.g (‖P‖ ^ 2 / m ^ 2) + g0 := rfl
  have k : ghost.g (‖P‖ ^ 2 / m ^ 2) = (phi (‖P‖ ^ 2) (m ^ 2) - m ^ 2 * d + 3 * Real.log (m ^ 2) - 11 / 2) / -12 := by rw [e]; ring
  rw [e1, k, vec_msq]
  have hpi : (π : ℂ) ≠ 0 := by exact_mod_cast Real.pi_ne_zero
  have hnc : (‖P‖ : ℂ) ≠ 0 := by exact_mod_cast hn
  push_cast
  field_simp
  ring

/-! ### Finite temperature -/

/-- The longitudinal polarisation, real. -/
noncomputable def eL (om p : ℝ) : Momentum := WithLp.toLp 2 ![p / √(om ^ 2 + p ^ 2), -om / √(om ^ 2 + p ^ 2), 0, 0]

/-- The transverse ones. -/
noncomputable def eT1 : Momentum := WithLp.toLp 2 ![0, 0, 1, 0]
noncomputable def eT2 : Momentum := WithLp.toLp 2 ![0, 0, 0, 1]

theorem norm_one_of {v : Momentum} (h : v 0 ^ 2 + v 1 ^ 2 + v 2 ^ 2 + v 3 ^ 2 = 1) : ‖v‖ = 1 := by
  have : ‖v‖ ^ 2 = 1 := by
    rw [EuclideanSpace.norm_sq_eq, Fin.sum_univ_four]
    simpa using h
  rw [← Real.sqrt_sq (norm_nonneg v), this, Real.sqrt_one]

theorem polL_real {om : ℝ} (ho : om ≠ 0) (p : ℝ) : polL om p = [eL om p].map vec ∧ Polarisations (momentum om p) [eL om p] := by
  have h : 0 < om ^ 2 + p ^ 2 := by positivity
  have hr : √(om ^ 2 + p ^ 2) ^ 2 = om ^ 2 + p ^ 2 := Real.sq_sqrt h.le
  have hr0 : √(om ^ 2 + p ^ 2) ≠ 0 := (Real.sqrt_pos.2 h).ne'
  refine ⟨?_, by simp, ?_⟩
  · have e : (((om : ℂ) ^ 2 + (p : ℂ) ^ 2) ^ ((1 : ℂ) / 2)) = ((√(om ^ 2 + p ^ 2) : ℝ) : ℂ) := by
      rw [Real.sqrt_eq_rpow, Complex.ofReal_cpow h.le]
      push_cast
      rfl
    rw [polL, e]
    simp only [List.map_cons, List.map_nil]
    congr 1
    ext i
    fin_cases i <;> simp [vec, eL, div_eq_inv_mul]
  · intro e he
    rw [List.mem_singleton.1 he]
    constructor
    · refine norm_one_of ?_
      simp only [eL]
      simp [div_pow, hr]
      field_simp
      ring
    · rw [PiLp.inner_apply, Fin.sum_univ_four]
      simp [eL, momentum]
      field_simp
      ring

theorem polT_real (om p : ℝ) : polT = [eT1, eT2].map vec ∧ Polarisations (momentum om p) [eT1, eT2] := by
  refine ⟨?_, by simp, ?_⟩
  · simp only [polT, List.map_cons, List.map_nil]
    congr 1
    · ext i
      fin_cases i <;> simp [vec, eT1]
    · congr 1
      ext i
      fin_cases i <;> simp [vec, eT2]
  · intro e he
    simp only [List.mem_cons, List.not_mem_nil, or_false] at he
    rcases he with rfl | rfl
    · refine ⟨norm_one_of (by simp [eT1]), ?_⟩
      rw [PiLp.inner_apply, Fin.sum_univ_four]
      simp [eT1, momentum]
    · refine ⟨norm_one_of (by simp [eT2]), ?_⟩
      rw [PiLp.inner_apply, Fin.sum_univ_four]
      simp [eT2, momentum]

theorem gluon_thermal_of (k : consts.Consts ℝ) {m : ℝ} (hm : 0 < m) (f0 : ℝ) {z : ℂ}
    (hz : ∀ P : Momentum, P ≠ 0 → ∀ l : List Momentum, Polarisations P l →
      ∃ x : ℂ, IsVacuumPolarization (l.map vec) (vec P) (m ^ 2) x ∧
        ((ym.gluon.dressing_inv_landau (‖P‖ ^ 2 / m ^ 2) f0 : ℝ) : ℂ) = z - 16 * π ^ 2 / 3 * (x / msq (vec P)))
    {beta om p : ℝ} {n : ℤ} (hb : 0 < beta) (hn : n ≠ 0) (ho : om = 2 * Real.pi * n / beta) (hp : p ≠ 0) :
      (∃ x t : ℂ, IsVacuumPolarization (polL om p) (external om p) (m ^ 2) x ∧ IsThermalPolarization (polL om p) (external om p) beta (m ^ 2) t ∧
        ym.thermal.gluon.dressing_l_inv_landau .exact k om p m beta f0 = z - 16 * π ^ 2 / 3 * ((x + t) / msq (external om p))) ∧
      (∃ x t : ℂ, IsVacuumPolarization polT (external om p) (m ^ 2) x ∧ IsThermalPolarization polT (external om p) beta (m ^ 2) t ∧
        ym.thermal.gluon.dressing_t_inv_landau .exact k om p m beta f0 = z - 16 * π ^ 2 / 3 * ((x + t) / msq (external om p))) := by
  have ho0 := (freq ho hn hb).1
  have hP : momentum om p ≠ 0 := momentum_ne ho0
  have e' : (om * om + p * p) / (m * m) = (om ^ 2 + p ^ 2) / m ^ 2 := by ring
  have fin : ∀ {x t : ℂ}, ((ym.gluon.dressing_inv_landau (‖momentum om p‖ ^ 2 / m ^ 2) f0 : ℝ) : ℂ) = z - 16 * π ^ 2 / 3 * (x / msq (vec (momentum om p))) →
      ((ym.gluon.dressing_inv_landau ((om * om + p * p) / (m * m)) f0 : ℝ) : ℂ) - (((om * om + p * p)⁻¹ * PREFACTOR : ℝ) : ℂ) * t =
        z - 16 * π ^ 2 / 3 * ((x + t) / msq (external om p)) := fun {x t} h => by
    rw [norm_momentum, vec_momentum, msq_external] at h
    rw [e', h, msq_external, PREFACTOR]
    push_cast
    ring
  constructor
  · obtain ⟨h1, h2⟩ := polL_real ho0 p
    obtain ⟨x, hx, ex⟩ := hz _ hP _ h2
    obtain ⟨D, E, g, h, t, c1, c2, c3, c4, c5, et⟩ := C83_polarization_glue_l (T1 := ℝ) (T2 := ℝ) k ho hn hp hm hb
    rw [← h1, vec_momentum] at hx
    refine ⟨x, g + h + t, hx, ⟨D, E, g, h, t, c1, c2, c3, c4, c5, rfl⟩, ?_⟩
    rw [← fin ex, ← et]
    rfl
  · obtain ⟨h1, h2⟩ := polT_real om p
    obtain ⟨x, hx, ex⟩ := hz _ hP _ h2
    obtain ⟨D, E, g, h, t, c1, c2, c3, c4, c5, et⟩ := C83_polarization_glue_t (T := ℝ) k ho hn hp hm hb
    rw [← h1, vec_momentum] at hx
    refine ⟨x, g + h + t, hx, ⟨D, E, g, h, t, c1, c2, c3, c4, c5, rfl⟩, ?_⟩
    rw [← fin ex, ← et]
    rfl

/-- **C86**: at finite temperature, vacuum and thermal part together, longitudinal and transverse; the constant does not depend on the
momentum, on the temperature, or on the polarisation. -/
theorem C86_gluon_thermal (k : consts.Consts ℝ) {m : ℝ} (hm : 0 < m) (f0 : ℝ) :
    ∃ z : ℂ, ∀ (beta : ℝ) (n : ℤ) (om p : ℝ), 0 < beta → n ≠ 0 → om = 2 * Real.pi * n / beta → p ≠ 0 →
      (∃ x t : ℂ, IsVacuumPolarization (polL om p) (external om p) (m ^ 2) x ∧ IsThermalPolarization (polL om p) (external om p) beta (m ^ 2) t ∧
        ym.thermal.gluon.dressing_l_inv_landau .exact k om p m beta f0 = z - 16 * π ^ 2 / 3 * ((x + t) / msq (external om p))) ∧
      (∃ x t : ℂ, IsVacuumPolarization polT (external om p) (m ^ 2) x ∧ IsThermalPolarization polT (external om p) beta (m ^ 2) t ∧
        ym.thermal.gluon.dressing_t_inv_landau .exact k om p m beta f0 = z - 16 * π ^ 2 / 3 * ((x + t) / msq (external om p))) := by
  obtain ⟨z, hz⟩ := C86_gluon_vacuum hm f0
  exact ⟨z, fun beta n om p hb hn ho hp => gluon_thermal_of k hm f0 hz hb hn ho hp⟩

/-! ### Concrete cases -/

example : Polarisations (momentum 1 2) [eL 1 2, eT1, eT2] :=
  ⟨by simp, fun e he => by
    rcases List.mem_cons.1 he with h | h
    · exact (polL_real one_ne_zero 2).2.2 e (by simpa using h)
    · exact (polT_real 1 2).2.2 e h⟩

example : ∃ z : ℂ, ∃ x : ℂ, IsVacuumPolarization ([eT1, eT2].map vec) (vec (momentum 1 2)) (3 ^ 2) x ∧
    ((ym.gluon.dressing_inv_landau (‖momentum 1 2‖ ^ 2 / 3 ^ 2) (-1) : ℝ) : ℂ) = z - 16 * π ^ 2 / 3 * (x / msq (vec (momentum 1 2))) := by
  obtain ⟨z, h⟩ := C86_gluon_vacuum (m := 3) (by norm_num) (-1)
  exact ⟨z, h _ (momentum_ne one_ne_zero) _ (polT_real 1 2).2⟩

example (k : consts.Consts ℝ) : ∃ z : ℂ, ∃ x t : ℂ, IsVacuumPolarization polT (external (2 * Real.pi) 1) (1 ^ 2) x ∧
    IsThermalPolarization polT (external (2 * Real.pi) 1) 1 (1 ^ 2) t ∧
    ym.thermal.gluon.dressing_t_inv_landau .exact k (2 * Real.pi) 1 1 1 0 = z - 16 * π ^ 2 / 3 * ((x + t) / msq (external (2 * Real.pi) 1)) := by
  obtain ⟨z, h⟩ := C86_gluon_thermal k (m := 1) one_pos 0
  have := (h 1 1 (2 * Real.pi) 1 one_pos one_ne_zero (by push_cast; ring) one_ne_zero).2
  push_cast at this
  exact ⟨z, this⟩

end Qcd
