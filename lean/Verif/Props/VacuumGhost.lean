import Verif.Lemmas.VacuumGhost
import Verif.Spec.Insertions
import Verif.Props.IntegratedDiagrams
import Verif.Model.ThermalDressing

/-! # C85: the vacuum ghost function is the one-loop diagram of the massive expansion -/

namespace Qcd
open MeasureTheory Set Spec Filter Topology Hyper
open scoped Real

/-- The ghost self-energy over the momentum squared, subtracted at a second momentum. -/
theorem ghost_family {P1 P2 : Momentum} (h1 : P1 ≠ 0) (h2 : P2 ≠ 0) :
    IsVacuumFamily (fun M Q => ghostSelfEnergy (vec P1) M Q / msq (vec P1) - ghostSelfEnergy (vec P2) M Q / msq (vec P2))
      fun M => ((-(1 / (64 * π ^ 2) * (phi (‖P1‖ ^ 2) M - phi (‖P2‖ ^ 2) M)) : ℝ) : ℂ) := by
  intro M hM
  have e : ∀ Q : Momentum, ghostSelfEnergy (vec P1) M (vec Q) / msq (vec P1) - ghostSelfEnergy (vec P2) M (vec Q) / msq (vec P2) =
      ((gh P2 M Q - gh P1 M Q : ℝ) : ℂ) := fun Q => by
    rw [ghost_vec h1, ghost_vec h2]
    push_cast
    ring
  refine ⟨fun R => ?_, ?_⟩
  · simp only [e]
    exact ((ball_gh h2 hM R).1.sub (ball_gh h1 hM R).1).ofReal
  · have hn1 : 0 < ‖P1‖ := norm_pos_iff.2 h1
    have hn2 : 0 < ‖P2‖ := norm_pos_iff.2 h2
    have lim : Tendsto (fun R : ℝ => Real.log (R ^ 2) - Real.log (R ^ 2 + M)) atTop (𝓝 0) := by
      have h3 : Tendsto (fun R : ℝ => 1 - M / (R ^ 2 + M)) atTop (𝓝 (1 - 0)) := by
        refine tendsto_const_nhds.sub (Tendsto.div_atTop tendsto_const_nhds ?_)
        exact tendsto_atTop_add_const_right _ _ (tendsto_pow_atTop two_ne_zero)
      have h4 := (Real.continuousAt_log (by norm_num : (1 - 0 : ℝ) ≠ 0)).tendsto.comp h3
      rw [sub_zero, Real.log_one] at h4
      refine h4.congr' ?_
      filter_upwards [eventually_gt_atTop 0] with R hR
      have h5 : R ^ 2 + M ≠ 0 := by positivity
      rw [Function.comp_apply, ← Real.log_div (by positivity) h5]
      congr 1
      field_simp
      ring
    have key : Tendsto (fun R : ℝ => ((-(1 / (64 * π ^ 2) * (phi (‖P1‖ ^ 2) M - phi (‖P2‖ ^ 2) M
        - (‖P1‖ ^ 2 - ‖P2‖ ^ 2) / M * (Real.log (R ^ 2) - Real.log (R ^ 2 + M)))) : ℝ) : ℂ)) atTop
        (𝓝 ((-(1 / (64 * π ^ 2) * (phi (‖P1‖ ^ 2) M - phi (‖P2‖ ^ 2) M)) : ℝ) : ℂ)) := by
      refine (Complex.continuous_ofReal.tendsto _).comp ?_
      have := ((tendsto_const_nhds (x := phi (‖P1‖ ^ 2) M - phi (‖P2‖ ^ 2) M)).sub (lim.const_mul ((‖P1‖ ^ 2 - ‖P2‖ ^ 2) / M))).const_mul (1 / (64 * π ^ 2))
      simpa using this.neg
    refine key.congr' ?_
    filter_upwards [eventually_gt_atTop ‖P1‖, eventually_gt_atTop ‖P2‖] with R hR1 hR2
    rw [cutoffIntegral]
    simp only [e]
    rw [integral_complex_ofReal, integral_sub (ball_gh h2 hM R).1 (ball_gh h1 hM R).1, (ball_gh h2 hM R).2, (ball_gh h1 hM R).2,
      radial hn1 hM hR1, radial hn2 hM hR2]
    norm_cast
    field_simp
    ring

theorem phi_deriv {s M : ℝ} (hs : 0 < s) (hM : 0 < M) : ∃ d, HasDerivAt (phi s) d M ∧ phi s M - M * d = -12 * ghost.g (s / M) - 3 * Real.log M + 11 / 2 := by
  have hsM : s + M ≠ 0 := by positivity
  have l1 : HasDerivAt (fun M => Real.log (s + M)) (1 / (s + M)) M := ((hasDerivAt_id M).const_add s).log hsM
  have l2 : HasDerivAt (fun M => Real.log M) M⁻¹ M := Real.hasDerivAt_log hM.ne'
  have i : HasDerivAt (fun M => M) 1 M := hasDerivAt_id M
  have q : HasDerivAt (fun M : ℝ => M ^ 2) (2 * M) M := by simpa using hasDerivAt_pow 2 M
  have v : HasDerivAt (fun M : ℝ => s / M) (-(s / M ^ 2)) M := by
    have := (hasDerivAt_inv hM.ne').const_mul s
    refine (this.congr_deriv (by field_simp)).congr_of_eventuallyEq (.of_forall fun x => ?_)
    simp [div_eq_mul_inv]
  have d := ((((i.mul (l1.sub l2)).const_sub s).const_mul (3 / s)).sub
    ((((i.mul_const s).const_sub (s ^ 2 / 2)).add (q.mul (l1.sub l2))).const_mul (1 / s ^ 2))).sub (l1.const_mul 3) |>.add
    (v.mul (l1.const_sub (Real.log s)))
  refine ⟨_, d, ?_⟩
  have e1 : Real.log (s / M) = Real.log s - Real.log M := Real.log_div hs.ne' hM.ne'
  have e2 : Real.log (s / M + 1) = Real.log (s + M) - Real.log M := by
    rw [← Real.log_div hsM hM.ne']
    congr 1
    field_simp
  simp only [phi, ghost.g, ghost.g_sep, ghost.l_g, ghost.r_g, ln_real, ofR_real, e1, e2, Pi.sub_apply, Pi.mul_apply, inv_div]
  generalize Real.log s = a
  generalize Real.log M = b
  generalize Real.log (s + M) = c
  field_simp
  ring

/-- **C85**: the inverse dressing function of the ghost in vacuum, at two momenta, differs by the one-loop diagram with at most one
insertion, divided by the momentum squared and subtracted: the cutoff is removed after the subtraction. The factor is `16π²/3` because
the inverse dressing functions are in units of `3 N g² / (16π²)`. -/
theorem C85_ghost_vacuum {P1 P2 : Momentum} (h1 : P1 ≠ 0) (h2 : P2 ≠ 0) {m : ℝ} (hm : 0 < m) (g0 : ℝ) :
    ∃ (D : ℝ → ℂ) (x : ℂ),
      IsVacuumFamily (fun M Q => ghostSelfEnergy (vec P1) M Q / msq (vec P1) - ghostSelfEnergy (vec P2) M Q / msq (vec P2)) D ∧
      HasOneInsertion D (m ^ 2) x ∧
      ((ghost.dressing_inv_landau (‖P1‖ ^ 2 / m ^ 2) g0 - ghost.dressing_inv_landau (‖P2‖ ^ 2 / m ^ 2) g0 : ℝ) : ℂ) = 16 * π ^ 2 / 3 * x := by
  have hn1 : 0 < ‖P1‖ := norm_pos_iff.2 h1
  have hn2 : 0 < ‖P2‖ := norm_pos_iff.2 h2
  obtain ⟨d1, hd1, e1⟩ := phi_deriv (s := ‖P1‖ ^ 2) (M := m ^ 2) (by positivity) (by positivity)
  obtain ⟨d2, hd2, e2⟩ := phi_deriv (s := ‖P2‖ ^ 2) (M := m ^ 2) (by positivity) (by positivity)
  refine ⟨_, _, ghost_family h1 h2, ⟨_, (((hd1.sub hd2).const_mul (1 / (64 * π ^ 2))).neg).ofReal_comp, rfl⟩, ?_⟩
  have e : ∀ s : ℝ, ghost.dressing_inv_landau s g0 = ghost.g s + g0 := fun s => rfl
  rw [e, e]
  have k1 : ghost.g (‖P1‖ ^ 2 / m ^ 2) = (phi (‖P1‖ ^ 2) (m ^ 2) - m ^ 2 * d1 + 3 * Real.log (m ^ 2) - 11 / 2) / -12 := by rw [e1]; ring
  have k2 : ghost.g (‖P2‖ ^ 2 / m ^ 2) = (phi (‖P2‖ ^ 2) (m ^ 2) - m ^ 2 * d2 + 3 * Real.log (m ^ 2) - 11 / 2) / -12 := by rw [e2]; ring
  rw [k1, k2]
  have hpi : (π : ℂ) ≠ 0 := by exact_mod_cast Real.pi_ne_zero
  push_cast
  field_simp
  ring

/-- The external momentum of energy `om` and spatial momentum `p`. -/
noncomputable def momentum (om p : ℝ) : Momentum := WithLp.toLp 2 ![om, p, 0, 0]

theorem vec_momentum (om p : ℝ) : vec (momentum om p) = external om p := by
  ext i
  fin_cases i <;> simp [vec, momentum, external]

theorem norm_momentum (om p : ℝ) : ‖momentum om p‖ ^ 2 = om ^ 2 + p ^ 2 := by
  rw [EuclideanSpace.norm_sq_eq, Fin.sum_univ_four]
  simp [momentum]

theorem momentum_ne {om p : ℝ} (ho : om ≠ 0) : momentum om p ≠ 0 := by
  intro h
  have := norm_momentum om p
  rw [h, norm_zero] at this
  have h2 : 0 < om ^ 2 + p ^ 2 := by positivity
  norm_num at this
  linarith

/-- **C85**: at finite temperature, vacuum and thermal part together. -/
theorem C85_ghost_thermal (k : consts.Consts ℝ) {om1 p1 om2 p2 m beta : ℝ} {l1 l2 : ℤ} (ho1 : om1 = 2 * Real.pi * l1 / beta) (hl1 : l1 ≠ 0) (hp1 : p1 ≠ 0)
    (ho2 : om2 = 2 * Real.pi * l2 / beta) (hl2 : l2 ≠ 0) (hp2 : p2 ≠ 0) (hm : 0 < m) (hb : 0 < beta) (g0 : ℝ) :
    ∃ (D E1 E2 : ℝ → ℂ) (x t1 t2 : ℂ),
      IsVacuumFamily (fun M Q => ghostSelfEnergy (external om1 p1) M Q / msq (external om1 p1) - ghostSelfEnergy (external om2 p2) M Q / msq (external om2 p2)) D ∧
      IsThermalFamily (fun M Q => ghostSelfEnergy (external om1 p1) M Q) beta E1 ∧
      IsThermalFamily (fun M Q => ghostSelfEnergy (external om2 p2) M Q) beta E2 ∧
      HasOneInsertion D (m ^ 2) x ∧ HasOneInsertion E1 (m ^ 2) t1 ∧ HasOneInsertion E2 (m ^ 2) t2 ∧
      ym.thermal.ghost.dressing_inv_landau .exact k om1 p1 m beta g0 - ym.thermal.ghost.dressing_inv_landau .exact k om2 p2 m beta g0 =
        16 * π ^ 2 / 3 * (x + t1 / msq (external om1 p1) - t2 / msq (external om2 p2)) := by
  obtain ⟨D, x, hD, hx, e⟩ := C85_ghost_vacuum (P1 := momentum om1 p1) (P2 := momentum om2 p2) (momentum_ne (freq ho1 hl1 hb).1)
    (momentum_ne (freq ho2 hl2 hb).1) hm g0
  obtain ⟨E1, hE1, ht1⟩ := C83_ghost_self_energy (T := ℝ) k ho1 hl1 hp1 hm hb
  obtain ⟨E2, hE2, ht2⟩ := C83_ghost_self_energy (T := ℝ) k ho2 hl2 hp2 hm hb
  simp only [vec_momentum] at hD
  refine ⟨D, E1, E2, x, _, _, hD, hE1, hE2, hx, ht1, ht2, ?_⟩
  rw [norm_momentum, norm_momentum] at e
  simp only [ym.thermal.ghost.dressing_inv_landau, msq_external, toC_real, ofR_real, PREFACTOR]
  have e' : ∀ om p : ℝ, (om * om + p * p) / (m * m) = (om ^ 2 + p ^ 2) / m ^ 2 := fun om p => by ring
  rw [e', e']
  push_cast at e ⊢
  linear_combination e

/-! ### Concrete cases -/

example : ∃ (D : ℝ → ℂ) (x : ℂ),
      IsVacuumFamily (fun M Q => ghostSelfEnergy (vec (momentum 1 2)) M Q / msq (vec (momentum 1 2)) -
        ghostSelfEnergy (vec (momentum 3 0)) M Q / msq (vec (momentum 3 0))) D ∧
      HasOneInsertion D ((1 / 2) ^ 2) x ∧
      ((ghost.dressing_inv_landau (‖momentum 1 2‖ ^ 2 / (1 / 2) ^ 2) 4 - ghost.dressing_inv_landau (‖momentum 3 0‖ ^ 2 / (1 / 2) ^ 2) 4 : ℝ) : ℂ) =
        16 * π ^ 2 / 3 * x :=
  C85_ghost_vacuum (momentum_ne one_ne_zero) (momentum_ne three_ne_zero) (by norm_num) 4

end Qcd
