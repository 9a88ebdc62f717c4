import Verif.Props.MassIntegral
import Verif.Props.Matsubara
import Verif.Lemmas.Compactify
import Verif.Spec.Insertions

/-! # C83: the integrated thermal self-energies are one-loop diagrams of the massive expansion at finite temperature

Specification: `Verif/Spec/Insertions.lean`. The numerical integrator is taken to be exact. -/

set_option linter.unusedSimpArgs false

namespace Qcd
open Set MeasureTheory Filter Topology
open Spec (IsIntegralDerivative)

variable {T T1 T2 : Type} [Num T] [Num T1] [Num T2]

/-! ### Closure properties -/

section
variable {f g : ℝ → ℝ → ℂ} {d e : ℝ → ℂ} {M : ℝ}

theorem Spec.IsIntegralDerivative.add (hf : IsIntegralDerivative f d M) (hg : IsIntegralDerivative g e M) :
    IsIntegralDerivative (fun q M' => f q M' + g q M') (fun q => d q + e q) M := by
  obtain ⟨h1, h2, h3⟩ := hf
  obtain ⟨k1, k2, k3⟩ := hg
  refine ⟨h1.mp (k1.mono fun M' a b => b.add a), h2.add k2, ?_⟩
  rw [integral_add h2 k2]
  refine (h3.add k3).congr_of_eventuallyEq ?_
  filter_upwards [h1, k1] with x hx kx
  exact integral_add hx kx

theorem Spec.IsIntegralDerivative.mulCoeff (hf : IsIntegralDerivative f d M) {c : ℝ → ℂ} {c' : ℂ} (hc : HasDerivAt c c' M) :
    IsIntegralDerivative (fun q M' => c M' * f q M') (fun q => c' * f q M + c M * d q) M := by
  obtain ⟨h1, h2, h3⟩ := hf
  have i1 : IntegrableOn (fun q => c' * f q M) (Ioi 0) := h1.self_of_nhds.const_mul c'
  have i2 : IntegrableOn (fun q => c M * d q) (Ioi 0) := h2.const_mul (c M)
  refine ⟨h1.mono fun M' h => h.const_mul _, i1.add i2, ?_⟩
  rw [integral_add i1 i2, integral_const_mul, integral_const_mul]
  refine (hc.mul h3).congr_of_eventuallyEq (.of_forall fun x => ?_)
  exact integral_const_mul _ _

theorem Spec.IsIntegralDerivative.indep {a : ℝ → ℂ} (h : IntegrableOn a (Ioi 0)) :
    IsIntegralDerivative (fun q _ => a q) (fun _ => 0) M :=
  ⟨.of_forall fun _ => h, integrable_zero _ _ _, by simpa using hasDerivAt_const M (∫ q in Ioi (0 : ℝ), a q)⟩

theorem Spec.IsIntegralDerivative.indepNeg {a : ℝ → ℂ} (h : IntegrableOn a (Ioi 0)) :
    IsIntegralDerivative (fun q _ => -a q) (fun _ => 0) M := .indep h.neg

theorem Spec.IsIntegralDerivative.congrOn (h : IsIntegralDerivative f d M) (hM : 0 < M)
    (hf : ∀ q, 0 < q → ∀ M', 0 < M' → g q M' = f q M') (hd : ∀ q, 0 < q → e q = d q) : IsIntegralDerivative g e M := by
  obtain ⟨h1, h2, h3⟩ := h
  have hp : ∀ᶠ M' in 𝓝 M, 0 < M' := Ioi_mem_nhds hM
  refine ⟨?_, h2.congr_fun (fun q hq => (hd q hq).symm) measurableSet_Ioi, ?_⟩
  · filter_upwards [h1, hp] with x hx px
    exact hx.congr_fun (fun q hq => (hf q hq x px).symm) measurableSet_Ioi
  · rw [setIntegral_congr_fun measurableSet_Ioi (fun q hq => hd q hq)]
    refine h3.congr_of_eventuallyEq ?_
    filter_upwards [hp] with x px
    exact setIntegral_congr_fun measurableSet_Ioi fun q hq => hf q hq x px

end

/-! ### The functions at complex-typed arguments -/

section
variable {om p M beta : ℝ}

theorem i82_same (ho : om ≠ 0) (hp : p ≠ 0) (hM : 0 < M) (hb : 0 < beta) :
    IsIntegralDerivative (fun q M' => thermal.i_m_m_i_same_mass q (om : ℂ) p (Real.sqrt M') beta)
      (fun q => 2 * thermal.d_i_m_m_i_same_mass q (om : ℂ) p (Real.sqrt M) beta) M := C82_d_i_m_m_i_same_mass (T1 := ℂ) ho hp hM hb

theorem i82_zero (ho : om ≠ 0) (hp : p ≠ 0) (hM : 0 < M) (hb : 0 < beta) :
    IsIntegralDerivative (fun q M' => thermal.i_m_0_i q (om : ℂ) p (Real.sqrt M') beta)
      (fun q => thermal.d_i_m_0_i q (om : ℂ) p (Real.sqrt M) beta) M := C82_d_i_m_0_i (T1 := ℂ) ho hp hM hb

theorem i82_same_l (ho : om ≠ 0) (hp : p ≠ 0) (hM : 0 < M) (hb : 0 < beta) :
    IsIntegralDerivative (fun q M' => thermal.i_m_m_l_i_same_mass q (om : ℂ) p (Real.sqrt M') beta)
      (fun q => 2 * thermal.d_i_m_m_l_i_same_mass q (om : ℂ) p (Real.sqrt M) beta) M := C82_d_i_m_m_l_i_same_mass (T1 := ℂ) ho hp hM hb

theorem i82_zero_l (ho : om ≠ 0) (hp : p ≠ 0) (hM : 0 < M) (hb : 0 < beta) :
    IsIntegralDerivative (fun q M' => thermal.i_m_0_l_i q (om : ℂ) p (Real.sqrt M') beta)
      (fun q => thermal.d_i_m_0_l_i q (om : ℂ) p (Real.sqrt M) beta) M := C82_d_i_m_0_l_i (T1 := ℂ) ho hp hM hb

theorem i82_same_t (ho : om ≠ 0) (hp : p ≠ 0) (hM : 0 < M) (hb : 0 < beta) :
    IsIntegralDerivative (fun q M' => thermal.i_m_m_t_i_same_mass q (om : ℂ) p (Real.sqrt M') beta)
      (fun q => 2 * thermal.d_i_m_m_t_i_same_mass q (om : ℂ) p (Real.sqrt M) beta) M := C82_d_i_m_m_t_i_same_mass (T1 := ℂ) ho hp hM hb

theorem i82_zero_t (ho : om ≠ 0) (hp : p ≠ 0) (hM : 0 < M) (hb : 0 < beta) :
    IsIntegralDerivative (fun q M' => thermal.i_m_0_t_i q (om : ℂ) p (Real.sqrt M') beta)
      (fun q => thermal.d_i_m_0_t_i q (om : ℂ) p (Real.sqrt M) beta) M := C82_d_i_m_0_t_i (T1 := ℂ) ho hp hM hb

theorem i82_j (hM : 0 < M) (hb : 0 < beta) :
    IsIntegralDerivative (fun q M' => ((thermal.j_m_i q (Real.sqrt M') beta : ℝ) : ℂ)) (fun q => ((thermal.d_j_m_i q (Real.sqrt M) beta : ℝ) : ℂ)) M := by
  simpa using C82_d_j_m_i (T := ℝ) hM hb

theorem i82_dj (hM : 0 < M) (hb : 0 < beta) :
    IsIntegralDerivative (fun q M' => ((thermal.d_j_m_i q (Real.sqrt M') beta : ℝ) : ℂ)) (fun q => ((thermal.d2_j_m_i q (Real.sqrt M) beta : ℝ) : ℂ)) M := by
  simpa using C82_d2_j_m_i (T := ℝ) hM hb

theorem int_j_0 (hb : 0 < beta) : IntegrableOn (fun q => ((thermal.j_0_i q beta : ℝ) : ℂ)) (Ioi 0) :=
  (dom_j_0_i hb).integrable hb le_rfl

theorem int_i_0_0 (ho : om ≠ 0) (hb : 0 < beta) : IntegrableOn (fun q => thermal.i_0_0_i q (om : ℂ) p beta) (Ioi 0) := by
  have := (dom_i_0_0_i (p := p) hb ho).integrable hb le_rfl
  simpa only [toC_thermal_i_0_0_i _ om, toC_thermal_i_0_0_i _ (om : ℂ), toC_real, toC_complex] using this

theorem i82_j_l (hM : 0 < M) (hb : 0 < beta) :
    IsIntegralDerivative (fun q M' => ((thermal.j_m_l_i q (Real.sqrt M') beta : ℝ) : ℂ)) (fun q => ((thermal.d_j_m_l_i q (Real.sqrt M) beta : ℝ) : ℂ)) M := by
  simpa using C82_d_j_m_l_i (T := ℝ) hM hb

theorem i82_dj_l (hM : 0 < M) (hb : 0 < beta) :
    IsIntegralDerivative (fun q M' => ((thermal.d_j_m_l_i q (Real.sqrt M') beta : ℝ) : ℂ)) (fun q => ((thermal.d2_j_m_l_i q (Real.sqrt M) beta : ℝ) : ℂ)) M := by
  simpa using C82_d2_j_m_l_i (T := ℝ) hM hb

theorem int_j_0_l (hb : 0 < beta) : IntegrableOn (fun q => ((thermal.j_0_l_i q beta : ℝ) : ℂ)) (Ioi 0) :=
  (dom_j_0_l_i hb).integrable hb le_rfl

theorem int_i_0_0_l (ho : om ≠ 0) (hb : 0 < beta) : IntegrableOn (fun q => thermal.i_0_0_l_i q (om : ℂ) p beta) (Ioi 0) := by
  have := (dom_i_0_0_l_i (p := p) hb ho).integrable hb le_rfl
  simpa only [toC_thermal_i_0_0_l_i _ om, toC_thermal_i_0_0_l_i _ (om : ℂ), toC_real, toC_complex] using this

theorem i82_j_t (hM : 0 < M) (hb : 0 < beta) :
    IsIntegralDerivative (fun q M' => ((thermal.j_m_t_i q (Real.sqrt M') beta : ℝ) : ℂ)) (fun q => ((thermal.d_j_m_t_i q (Real.sqrt M) beta : ℝ) : ℂ)) M := by
  simpa using C82_d_j_m_t_i (T := ℝ) hM hb

theorem i82_dj_t (hM : 0 < M) (hb : 0 < beta) :
    IsIntegralDerivative (fun q M' => ((thermal.d_j_m_t_i q (Real.sqrt M') beta : ℝ) : ℂ)) (fun q => ((thermal.d2_j_m_t_i q (Real.sqrt M) beta : ℝ) : ℂ)) M := by
  simpa using C82_d2_j_m_t_i (T := ℝ) hM hb

theorem int_j_0_t (hb : 0 < beta) : IntegrableOn (fun q => ((thermal.j_0_t_i q beta : ℝ) : ℂ)) (Ioi 0) :=
  (dom_j_0_t_i hb).integrable hb le_rfl

theorem int_i_0_0_t (ho : om ≠ 0) (hb : 0 < beta) : IntegrableOn (fun q => thermal.i_0_0_t_i q (om : ℂ) p beta) (Ioi 0) := by
  have := (dom_i_0_0_t_i (p := p) hb ho).integrable hb le_rfl
  simpa only [toC_thermal_i_0_0_t_i _ om, toC_thermal_i_0_0_t_i _ (om : ℂ), toC_real, toC_complex] using this

end

/-- `v` integrates to `(1 - M ∂/∂M) ∫₀^∞ f(q, M) dq`. -/
def IntegralOne (f : ℝ → ℝ → ℂ) (M : ℝ) (v : ℝ → ℂ) : Prop :=
  ∃ d : ℝ → ℂ, IsIntegralDerivative f d M ∧ ∀ q, 0 < q → v q = f q M - M * d q

/-- `v` integrates to `(1 - M ∂/∂M + (M²/2) ∂²/∂M²) ∫₀^∞ f(q, M) dq`. -/
def IntegralTwo (f : ℝ → ℝ → ℂ) (M : ℝ) (v : ℝ → ℂ) : Prop :=
  ∃ (d : ℝ → ℝ → ℂ) (d2 : ℝ → ℂ), (∀ M', 0 < M' → IsIntegralDerivative f (fun q => d q M') M') ∧ IsIntegralDerivative d d2 M ∧
    ∀ q, 0 < q → v q = f q M - M * d q M + M ^ 2 / 2 * d2 q

theorem IntegralOne.insertion {f : ℝ → ℝ → ℂ} {M : ℝ} {v : ℝ → ℂ} (h : IntegralOne f M v) :
    IntegrableOn v (Ioi 0) ∧ Spec.HasOneInsertion (fun M => ∫ q in Ioi (0 : ℝ), f q M) M (∫ q in Ioi (0 : ℝ), v q) := by
  obtain ⟨d, ⟨h1, h2, h3⟩, hv⟩ := h
  have i1 := h1.self_of_nhds
  have i2 : IntegrableOn (fun q => M * d q) (Ioi 0) := h2.const_mul (M : ℂ)
  refine ⟨(i1.sub i2).congr_fun (fun q hq => (hv q hq).symm) measurableSet_Ioi, _, h3, ?_⟩
  rw [setIntegral_congr_fun measurableSet_Ioi (fun q hq => hv q hq), integral_sub i1 i2, integral_const_mul]

theorem IntegralTwo.insertion {f : ℝ → ℝ → ℂ} {M : ℝ} {v : ℝ → ℂ} (h : IntegralTwo f M v) (hM : 0 < M) :
    IntegrableOn v (Ioi 0) ∧ Spec.HasTwoInsertions (fun M => ∫ q in Ioi (0 : ℝ), f q M) M (∫ q in Ioi (0 : ℝ), v q) := by
  obtain ⟨d, d2, h, ⟨k1, k2, k3⟩, hv⟩ := h
  have i0 := (h M hM).1.self_of_nhds
  have i1 : IntegrableOn (fun q => M * d q M) (Ioi 0) := k1.self_of_nhds.const_mul (M : ℂ)
  have i2 : IntegrableOn (fun q => (M : ℂ) ^ 2 / 2 * d2 q) (Ioi 0) := k2.const_mul _
  refine ⟨((i0.sub i1).add i2).congr_fun (fun q hq => (hv q hq).symm) measurableSet_Ioi, _, _, fun M' hM' => (h M' hM').2.2, k3, ?_⟩
  have e := setIntegral_congr_fun (μ := volume) measurableSet_Ioi (fun q hq => hv q hq)
  have e2 : ∫ q in Ioi (0 : ℝ), (f q M - M * d q M + (M : ℂ) ^ 2 / 2 * d2 q) = (∫ q in Ioi (0 : ℝ), (f q M - M * d q M)) + ∫ q in Ioi (0 : ℝ), (M : ℂ) ^ 2 / 2 * d2 q :=
    integral_add (i0.sub i1) i2
  rw [e, e2, integral_sub i0 i1, integral_const_mul, integral_const_mul]

/-- The integrated diagrams of the polarization, whatever the polarisations of the external gluon. -/
theorem glue_integral_insertions {pol : List Spec.Vec} {om p M beta : ℝ} {V : ℝ → ℂ → ℝ → ℂ} (hV : ∀ q, Polarised pol om p q (V q))
    (ho : om ≠ 0) (hM : 0 < M) (hb : 0 < beta) {Imm Im0 J dJ Smm Sm0 : ℝ → ℝ → ℂ} {I00 J0 dImm dIm0 d2J dSmm dSm0 : ℝ → ℂ}
    (hImm : ∀ q, 0 < q → ∀ M', 0 < M' → Spec.loop (V q) q om p (Real.sqrt M') (Real.sqrt M') beta = Imm q M')
    (hIm0 : ∀ q, 0 < q → ∀ M', 0 < M' → Spec.loop (V q) q om p (Real.sqrt M') 0 beta = Im0 q M')
    (hI00 : ∀ q, 0 < q → Spec.loop (V q) q om p 0 0 beta = I00 q)
    (hJ : ∀ q, 0 < q → ∀ M', 0 < M' → Spec.tadpole (V q) q (Real.sqrt M') beta = J q M')
    (hJ0 : ∀ q, 0 < q → Spec.tadpole (V q) q 0 beta = J0 q)
    (kImm : IsIntegralDerivative Imm dImm M) (kIm0 : IsIntegralDerivative Im0 dIm0 M)
    (kJ : ∀ M', 0 < M' → IsIntegralDerivative J (fun q => dJ q M') M') (kJ2 : IsIntegralDerivative dJ d2J M)
    (hSmm : ∀ q, 0 < q → ∀ M', 0 < M' → Spec.loop Spec.scalar q om p (Real.sqrt M') (Real.sqrt M') beta = Smm q M')
    (hSm0 : ∀ q, 0 < q → ∀ M', 0 < M' → Spec.loop Spec.scalar q om p (Real.sqrt M') 0 beta = Sm0 q M')
    (kSmm : IsIntegralDerivative Smm (fun q => 2 * dSmm q) M) (kSm0 : IsIntegralDerivative Sm0 dSm0 M)
    (iI00 : IntegrableOn I00 (Ioi 0)) (iJ0 : IntegrableOn J0 (Ioi 0)) :
    ∃ g t : ℝ → ℂ, IntegralOne (Spec.gluonLoopThermal pol om p beta) M g ∧
      IntegralTwo (Spec.gluonTadpoleThermal pol om p beta) M t ∧
      ∀ q, 0 < q → g q + Spec.ghostLoopThermal pol om p beta q + t q =
        (3 * ((om : ℂ) ^ 2 + (p : ℂ) ^ 2) ^ 2 / (2 * (M : ℂ) ^ 2) - 1) * I00 q
        + ((3 * ((om : ℂ) ^ 2 + (p : ℂ) ^ 2) ^ 2 + 8 * ((om : ℂ) ^ 2 + (p : ℂ) ^ 2) * M + 4 * (M : ℂ) ^ 2) / (2 * (M : ℂ) ^ 2) + 4) * Imm q M
        - (3 * ((om : ℂ) ^ 2 + (p : ℂ) ^ 2) ^ 2 + 4 * ((om : ℂ) ^ 2 + (p : ℂ) ^ 2) * M + (M : ℂ) ^ 2) / (M : ℂ) ^ 2 * Im0 q M
        + 2 * ((om : ℂ) ^ 2 + (p : ℂ) ^ 2) * ((om : ℂ) ^ 2 + (p : ℂ) ^ 2 + 2 * M) / M * Smm q M
        - 2 * ((om : ℂ) ^ 2 + (p : ℂ) ^ 2) * ((om : ℂ) ^ 2 + (p : ℂ) ^ 2 + M) / M * Sm0 q M
        - (2 * ((om : ℂ) ^ 2 + (p : ℂ) ^ 2) + 3 * M) / M * ((thermal.j_m_i q (Real.sqrt M) beta : ℝ) : ℂ)
        + (2 * ((om : ℂ) ^ 2 + (p : ℂ) ^ 2) + M) / M * ((thermal.j_0_i q beta : ℝ) : ℂ)
        - (((om : ℂ) ^ 2 + (p : ℂ) ^ 2 + 2 * M) ^ 2 / M + 8 * M) * (dImm q / 2)
        + ((om : ℂ) ^ 2 + (p : ℂ) ^ 2 + M) ^ 2 / M * dIm0 q
        - 2 * ((om : ℂ) ^ 2 + (p : ℂ) ^ 2) * ((om : ℂ) ^ 2 + (p : ℂ) ^ 2 + 4 * M) * dSmm q
        + ((om : ℂ) ^ 2 + (p : ℂ) ^ 2 + M) ^ 2 * dSm0 q
        + ((om : ℂ) ^ 2 + (p : ℂ) ^ 2 + 3 * M) * ((thermal.d_j_m_i q (Real.sqrt M) beta : ℝ) : ℂ)
        - (M : ℂ) ^ 2 * ((thermal.d2_j_m_i q (Real.sqrt M) beta : ℝ) : ℂ)
        + (J q M - J0 q) / M - dJ q M + d2J q * M / 2 := by
  obtain ⟨s, hs⟩ : ∃ s, s = (om : ℂ) ^ 2 + (p : ℂ) ^ 2 := ⟨_, rfl⟩
  have hM0 : (M : ℂ) ≠ 0 := by exact_mod_cast hM.ne'
  -- the scalar loops and tadpoles
  have e : ∀ q, 0 < q → ∀ M', 0 < M' →
      Spec.loop Spec.scalar q om p (Real.sqrt M') (Real.sqrt M') beta = Smm q M' ∧
      Spec.loop Spec.scalar q om p (Real.sqrt M') 0 beta = Sm0 q M' ∧
      Spec.tadpole Spec.scalar q (Real.sqrt M') beta = ((thermal.j_m_i q (Real.sqrt M') beta : ℝ) : ℂ) := by
    intro q hq M' hM'
    have e3 := (C62_tadpoles q (Real.sqrt M') beta).1
    simp only [toC_real] at e3
    exact ⟨hSmm q hq M' hM', hSm0 q hq M' hM', e3.symm⟩
  have e0 : ∀ q, 0 < q → Spec.tadpole Spec.scalar q 0 beta = ((thermal.j_0_i q beta : ℝ) : ℂ) :=
    fun q hq => (C62_tadpoles_massless hq beta).1.symm
  -- gluon loop
  have k1 := kImm.mulCoeff (laurent_deriv (s ^ 2 / 2) (2 * s) 6 0 hM)
  have k2 := kIm0.mulCoeff (laurent_deriv (-s ^ 2) (-2 * s) (-1) 0 hM)
  have k3 := (IsIntegralDerivative.indep (M := M) iI00).mulCoeff (laurent_deriv (s ^ 2 / 2) 0 0 0 hM)
  have k4 := ((kJ M hM).add (.indepNeg iJ0)).mulCoeff (laurent_deriv 0 (-1) 0 0 hM)
  have k5 := kSmm.mulCoeff (laurent_deriv 0 (s ^ 2) (4 * s) 0 hM)
  have k6 := kSm0.mulCoeff (laurent_deriv 0 (-s ^ 2) (-2 * s) (-1) hM)
  have k7 := ((i82_j hM hb).add (.indepNeg (int_j_0 hb))).mulCoeff (laurent_deriv 0 (-s) (-1) 0 hM)
  have kL := ((((((k1.add k2).add k3).add k4).add k5).add k6).add k7)
  -- tadpole
  have t1 := fun (M' : ℝ) (hM' : 0 < M') => (i82_j hM' hb).mulCoeff (hasDerivAt_const M' (-2 : ℂ))
  have t2 := fun (M' : ℝ) (hM' : 0 < M') => ((kJ M' hM').add (.indepNeg iJ0)).mulCoeff (laurent_deriv 0 1 0 0 hM')
  have u1 : IsIntegralDerivative (fun q M => ((thermal.d_j_m_i q (Real.sqrt M) beta : ℝ) : ℂ))
      (fun q => ((thermal.d2_j_m_i q (Real.sqrt M) beta : ℝ) : ℂ)) M :=
    i82_dj hM hb
  have u2 := u1.mulCoeff (hasDerivAt_const M (-2 : ℂ))
  have u3 := ((kJ M hM).add (.indepNeg iJ0)).mulCoeff (laurent_deriv (-1) 0 0 0 hM)
  have u4 := kJ2.mulCoeff (laurent_deriv 0 1 0 0 hM)
  refine ⟨_, _, ⟨_, kL.congrOn hM ?_ (fun q hq => rfl), fun q hq => rfl⟩,
    ⟨fun q M' => -2 * ((thermal.d_j_m_i q (Real.sqrt M') beta : ℝ) : ℂ) - 1 / (M' : ℂ) ^ 2 * (J q M' - J0 q) + 1 / (M' : ℂ) * dJ q M', _,
      fun M' hM' => ((t1 M' hM').add (t2 M' hM')).congrOn hM' ?_ ?_, ((u2.add u3).add u4).congrOn hM ?_ (fun q hq => rfl), fun q hq => rfl⟩, ?_⟩
  · intro q hq M' hM'
    have hM0 : (M' : ℂ) ≠ 0 := by exact_mod_cast hM'.ne'
    obtain ⟨e1, e2, e3⟩ := e q hq M' hM'
    rw [gluonLoopThermal_eq (hV q) hq ho hM', hImm q hq M' hM', hIm0 q hq M' hM', hI00 q hq, hJ q hq M' hM', hJ0 q hq, e1, e2, e3, e0 q hq, ← hs]
    field_simp
    ring
  · intro q hq M'' hM''
    obtain ⟨e1, e2, e3⟩ := e q hq M'' hM''
    rw [gluonTadpoleThermal_eq (hV q) hq hM'', hJ q hq M'' hM'', hJ0 q hq, e3]
    ring
  · intro q hq
    ring
  · intro q hq M' hM'
    ring
  · intro q hq
    obtain ⟨e1, e2, e3⟩ := e q hq M hM
    rw [gluonLoopThermal_eq (hV q) hq ho hM, ghostLoopThermal_eq (hV q) hq ho, gluonTadpoleThermal_eq (hV q) hq hM, hImm q hq M hM, hIm0 q hq M hM,
      hI00 q hq, hJ q hq M hM, hJ0 q hq, e1, e2, e3, e0 q hq, ← hs]
    field_simp
    ring

/-- The scalar loops. -/
theorem scalar_loops {om p beta : ℝ} (ho : om ≠ 0) (hp : p ≠ 0) :
    (∀ q, 0 < q → ∀ M', 0 < M' → Spec.loop Spec.scalar q om p (Real.sqrt M') (Real.sqrt M') beta = thermal.i_m_m_i_same_mass q (om : ℂ) p (Real.sqrt M') beta) ∧
    (∀ q, 0 < q → ∀ M', 0 < M' → Spec.loop Spec.scalar q om p (Real.sqrt M') 0 beta = thermal.i_m_0_i q (om : ℂ) p (Real.sqrt M') beta) := by
  constructor
  all_goals
    intro q hq M' hM'
    have r : ∀ m m' : ℝ, Spec.RegularLeg q om p m m' := regularLeg_real hq ho p
    have r1 : Spec.Regular q om p (Real.sqrt M' : ℝ) (Real.sqrt M' : ℝ) := ⟨r _ _, r _ _⟩
    have r0 : Spec.Regular q om p (Real.sqrt M' : ℝ) 0 := ⟨by simpa using r _ 0, by simpa using r 0 _⟩
    have e1 := C62_i_m_m_i_same_mass (om := (om : ℂ)) (p := p) (m := Real.sqrt M') hq.ne' hp (by simpa using r1) beta
    have e2 := C62_i_m_0_i (om := (om : ℂ)) (p := p) (m := Real.sqrt M') hq hp (by simpa using r0) beta
    simp only [toC_real, toC_complex] at e1 e2
    first | exact e1.symm | exact e2.symm

theorem ghost_integral_insertion {om p m beta : ℝ} (ho : om ≠ 0) (hp : p ≠ 0) (hm : 0 < m) (hb : 0 < beta) :
    IntegralOne (Spec.ghostSelfEnergyThermal om p beta) (m ^ 2)
      fun q => ghost.thermal.self_energy_thermal_part_landau_i q (ofR om : T) p m beta := by
  have hM : 0 < m ^ 2 := by positivity
  have hsm : Real.sqrt (m ^ 2) = m := Real.sqrt_sq hm.le
  obtain ⟨s, hs⟩ : ∃ s, s = (om : ℂ) ^ 2 + (p : ℂ) ^ 2 := ⟨_, rfl⟩
  have k1 := (i82_zero ho hp hM hb).mulCoeff (laurent_deriv 0 (-s ^ 2 / 4) (-s / 2) (-1 / 4) hM)
  have k2 := (IsIntegralDerivative.indep (M := m ^ 2) (int_i_0_0 (p := p) ho hb)).mulCoeff (laurent_deriv 0 (s ^ 2 / 4) 0 0 hM)
  have k3 := ((i82_j hM hb).add (.indepNeg (int_j_0 hb))).mulCoeff (laurent_deriv 0 (s / 4) (-1 / 4) 0 hM)
  refine ⟨_, ((k1.add k2).add k3).congrOn hM ?_ (fun q hq => rfl), ?_⟩
  · intro q hq M' hM'
    have hM0 : (M' : ℂ) ≠ 0 := by exact_mod_cast hM'.ne'
    rw [ghostSelfEnergyThermal_model hq ho hp hM', ← hs]
    generalize thermal.i_m_0_i q (om : ℂ) p (Real.sqrt M') beta = a1
    generalize thermal.i_0_0_i q (om : ℂ) p beta = a2
    field_simp
    ring
  · intro q hq
    have hm0 : (m : ℂ) ≠ 0 := by exact_mod_cast hm.ne'
    beta_reduce
    rw [ghostSelfEnergyThermal_model hq ho hp hM, ← hs, toC_ghost_thermal_self_energy_thermal_part_landau_i, toC_ofR]
    simp only [ghost.thermal.self_energy_thermal_part_landau_i, toC_complex, ofR_complex, hsm]
    push_cast
    rw [show (om : ℂ) * om + (p : ℂ) * p = s by rw [hs]; ring]
    generalize thermal.i_m_0_i q (om : ℂ) p m beta = a1
    generalize thermal.i_0_0_i q (om : ℂ) p beta = a2
    generalize thermal.d_i_m_0_i q (om : ℂ) p m beta = a3
    field_simp
    ring

theorem glue_l_integral {om p m beta : ℝ} (ho : om ≠ 0) (hp : p ≠ 0) (hm : 0 < m) (hb : 0 < beta) :
    ∃ g t : ℝ → ℂ, IntegralOne (Spec.gluonLoopThermal (Spec.polL om p) om p beta) (m ^ 2) g ∧
      IntegralTwo (Spec.gluonTadpoleThermal (Spec.polL om p) om p beta) (m ^ 2) t ∧
      ∀ q, 0 < q → gluon.thermal.polarization_glue_l_thermal_part_landau_i q (ofR om : T1) (ofR p : T2) m beta =
        g q + Spec.ghostLoopThermal (Spec.polL om p) om p beta q + t q := by
  have hM : 0 < m ^ 2 := by positivity
  have hsm : Real.sqrt (m ^ 2) = m := Real.sqrt_sq hm.le
  have hs := sum_sq_ne ho p
  have ho' : (om : ℂ) ≠ 0 := by exact_mod_cast ho
  have r : ∀ q, 0 < q → ∀ m m' : ℝ, Spec.RegularLeg q om p m m' := fun q hq => regularLeg_real hq ho p
  have tt := fun (M' : ℝ) (hM' : 0 < M') => ((i82_j_t hM' hb).mulCoeff (hasDerivAt_const M' ((om : ℂ) ^ 2 / ((om : ℂ) ^ 2 + (p : ℂ) ^ 2)))).add
    ((i82_j_l hM' hb).mulCoeff (hasDerivAt_const M' ((p : ℂ) ^ 2 / ((om : ℂ) ^ 2 + (p : ℂ) ^ 2))))
  have u1 : IsIntegralDerivative (fun q M => ((thermal.d_j_m_l_i q (Real.sqrt M) beta : ℝ) : ℂ))
      (fun q => ((thermal.d2_j_m_l_i q (Real.sqrt (m ^ 2)) beta : ℝ) : ℂ)) (m ^ 2) :=
    i82_dj_l hM hb
  have u2 := ((i82_dj_t hM hb).mulCoeff (hasDerivAt_const _ ((om : ℂ) ^ 2 / ((om : ℂ) ^ 2 + (p : ℂ) ^ 2)))).add
    (u1.mulCoeff (hasDerivAt_const _ ((p : ℂ) ^ 2 / ((om : ℂ) ^ 2 + (p : ℂ) ^ 2))))
  obtain ⟨g, t, hg, ht, h⟩ := glue_integral_insertions (fun q => polL_polarised hs q) ho hM hb
    (Imm := fun q M' => thermal.i_m_m_l_i_same_mass q (om : ℂ) p (Real.sqrt M') beta)
    (Im0 := fun q M' => thermal.i_m_0_l_i q (om : ℂ) p (Real.sqrt M') beta)
    (I00 := fun q => thermal.i_0_0_l_i q (om : ℂ) p beta)
    (J := fun q M' => (om : ℂ) ^ 2 / ((om : ℂ) ^ 2 + (p : ℂ) ^ 2) * ((thermal.j_m_t_i q (Real.sqrt M') beta : ℝ) : ℂ)
      + (p : ℂ) ^ 2 / ((om : ℂ) ^ 2 + (p : ℂ) ^ 2) * ((thermal.j_m_l_i q (Real.sqrt M') beta : ℝ) : ℂ))
    (J0 := fun q => (om : ℂ) ^ 2 / ((om : ℂ) ^ 2 + (p : ℂ) ^ 2) * ((thermal.j_0_t_i q beta : ℝ) : ℂ)
      + (p : ℂ) ^ 2 / ((om : ℂ) ^ 2 + (p : ℂ) ^ 2) * ((thermal.j_0_l_i q beta : ℝ) : ℂ))
    (dJ := fun q M' => (om : ℂ) ^ 2 / ((om : ℂ) ^ 2 + (p : ℂ) ^ 2) * ((thermal.d_j_m_t_i q (Real.sqrt M') beta : ℝ) : ℂ)
      + (p : ℂ) ^ 2 / ((om : ℂ) ^ 2 + (p : ℂ) ^ 2) * ((thermal.d_j_m_l_i q (Real.sqrt M') beta : ℝ) : ℂ))
    (fun q hq M' hM' => by
      have e := C62_i_m_m_l_i_same_mass (om := (om : ℂ)) (p := p) (m := Real.sqrt M') hq.ne' hp ho'
        ⟨by simpa using r q hq _ _, by simpa using r q hq _ _⟩ beta
      simp only [toC_real, toC_complex] at e
      exact e.symm)
    (fun q hq M' hM' => by
      have e := C62_i_m_0_l_i (om := (om : ℂ)) (p := p) (m := Real.sqrt M') hq hp ho'
        ⟨by simpa using r q hq _ 0, by simpa using r q hq 0 _⟩ beta
      simp only [toC_real, toC_complex] at e
      exact e.symm)
    (fun q hq => by
      have e := C62_i_0_0_l_i (om := (om : ℂ)) (p := p) hq hp ho' ⟨by simpa using r q hq 0 0, by simpa using r q hq 0 0⟩ beta
      simp only [toC_real, toC_complex] at e
      exact e.symm)
    (fun q hq M' hM' => by
      have e := C62_tadpoles q (Real.sqrt M') beta
      simp only [toC_real] at e
      rw [tadpole_longitudinal q hs, e.2.1, e.2.2]; ring)
    (fun q hq => by
      have e := C62_tadpoles_massless hq beta
      rw [tadpole_longitudinal q hs, e.2.1, e.2.2]; ring)
    (i82_same_l ho hp hM hb) (i82_zero_l ho hp hM hb)
    (fun M' hM' => (tt M' hM').congrOn hM' (fun q _ M'' _ => rfl) fun q _ => by ring)
    (u2.congrOn hM (fun q _ M' _ => rfl) fun q _ => rfl)
    (scalar_loops ho hp).1 (scalar_loops ho hp).2 (i82_same ho hp hM hb) (i82_zero ho hp hM hb) (int_i_0_0_l ho hb) (by
      have i1 : IntegrableOn (fun q => (om : ℂ) ^ 2 / ((om : ℂ) ^ 2 + (p : ℂ) ^ 2) * ((thermal.j_0_t_i q beta : ℝ) : ℂ)) (Ioi 0) := (int_j_0_t hb).const_mul _
      have i2 : IntegrableOn (fun q => (p : ℂ) ^ 2 / ((om : ℂ) ^ 2 + (p : ℂ) ^ 2) * ((thermal.j_0_l_i q beta : ℝ) : ℂ)) (Ioi 0) := (int_j_0_l hb).const_mul _
      exact i1.add i2)
  refine ⟨g, t, hg, ht, fun q hq => ?_⟩
  rw [h q hq, toC_gluon_thermal_polarization_glue_l_thermal_part_landau_i, toC_ofR, toC_ofR]
  simp only [gluon.thermal.polarization_glue_l_thermal_part_landau_i, toC_complex, ofR_complex, hsm]
  push_cast
  have hm0 : (m : ℂ) ≠ 0 := by exact_mod_cast hm.ne'
  rw [show (om : ℂ) * om + (p : ℂ) * p = (om : ℂ) ^ 2 + (p : ℂ) ^ 2 by ring]
  have c : thermal.i_0_0_l_i q (om : ℂ) (p : ℂ) beta = thermal.i_0_0_l_i q (om : ℂ) p beta ∧
      thermal.i_m_m_l_i_same_mass q (om : ℂ) (p : ℂ) m beta = thermal.i_m_m_l_i_same_mass q (om : ℂ) p m beta ∧
      thermal.i_m_0_l_i q (om : ℂ) (p : ℂ) m beta = thermal.i_m_0_l_i q (om : ℂ) p m beta ∧
      thermal.i_m_m_i_same_mass q (om : ℂ) (p : ℂ) m beta = thermal.i_m_m_i_same_mass q (om : ℂ) p m beta ∧
      thermal.i_m_0_i q (om : ℂ) (p : ℂ) m beta = thermal.i_m_0_i q (om : ℂ) p m beta ∧
      thermal.d_i_m_m_l_i_same_mass q (om : ℂ) (p : ℂ) m beta = thermal.d_i_m_m_l_i_same_mass q (om : ℂ) p m beta ∧
      thermal.d_i_m_0_l_i q (om : ℂ) (p : ℂ) m beta = thermal.d_i_m_0_l_i q (om : ℂ) p m beta ∧
      thermal.d_i_m_m_i_same_mass q (om : ℂ) (p : ℂ) m beta = thermal.d_i_m_m_i_same_mass q (om : ℂ) p m beta ∧
      thermal.d_i_m_0_i q (om : ℂ) (p : ℂ) m beta = thermal.d_i_m_0_i q (om : ℂ) p m beta :=
    ⟨(toC_thermal_i_0_0_l_i q (om : ℂ) (p : ℂ) beta).trans (toC_thermal_i_0_0_l_i q (om : ℂ) p beta).symm,
      (toC_thermal_i_m_m_l_i_same_mass q (om : ℂ) (p : ℂ) m beta).trans (toC_thermal_i_m_m_l_i_same_mass q (om : ℂ) p m beta).symm,
      (toC_thermal_i_m_0_l_i q (om : ℂ) (p : ℂ) m beta).trans (toC_thermal_i_m_0_l_i q (om : ℂ) p m beta).symm,
      (toC_thermal_i_m_m_i_same_mass q (om : ℂ) (p : ℂ) m beta).trans (toC_thermal_i_m_m_i_same_mass q (om : ℂ) p m beta).symm,
      (toC_thermal_i_m_0_i q (om : ℂ) (p : ℂ) m beta).trans (toC_thermal_i_m_0_i q (om : ℂ) p m beta).symm,
      (toC_thermal_d_i_m_m_l_i_same_mass q (om : ℂ) (p : ℂ) m beta).trans (toC_thermal_d_i_m_m_l_i_same_mass q (om : ℂ) p m beta).symm,
      (toC_thermal_d_i_m_0_l_i q (om : ℂ) (p : ℂ) m beta).trans (toC_thermal_d_i_m_0_l_i q (om : ℂ) p m beta).symm,
      (toC_thermal_d_i_m_m_i_same_mass q (om : ℂ) (p : ℂ) m beta).trans (toC_thermal_d_i_m_m_i_same_mass q (om : ℂ) p m beta).symm,
      (toC_thermal_d_i_m_0_i q (om : ℂ) (p : ℂ) m beta).trans (toC_thermal_d_i_m_0_i q (om : ℂ) p m beta).symm⟩
  obtain ⟨c1, c2, c3, c4, c5, c6, c7, c8, c9⟩ := c
  simp only [c1, c2, c3, c4, c5, c6, c7, c8, c9]
  clear c1 c2 c3 c4 c5 c6 c7 c8 c9 u1 u2 tt h hg ht r
  generalize (om : ℂ) ^ 2 + (p : ℂ) ^ 2 = s at *
  generalize thermal.i_0_0_l_i q (om : ℂ) p beta = a0
  generalize thermal.i_m_m_l_i_same_mass q (om : ℂ) p m beta = a1
  generalize thermal.i_m_0_l_i q (om : ℂ) p m beta = a2
  generalize thermal.i_m_m_i_same_mass q (om : ℂ) p m beta = a3
  generalize thermal.i_m_0_i q (om : ℂ) p m beta = a4
  generalize thermal.d_i_m_m_l_i_same_mass q (om : ℂ) p m beta = a5
  generalize thermal.d_i_m_0_l_i q (om : ℂ) p m beta = a6
  generalize thermal.d_i_m_m_i_same_mass q (om : ℂ) p m beta = a7
  generalize thermal.d_i_m_0_i q (om : ℂ) p m beta = a8
  field_simp
  ring

theorem glue_t_integral {om p m beta : ℝ} (ho : om ≠ 0) (hp : p ≠ 0) (hm : 0 < m) (hb : 0 < beta) :
    ∃ g t : ℝ → ℂ, IntegralOne (Spec.gluonLoopThermal Spec.polT om p beta) (m ^ 2) g ∧
      IntegralTwo (Spec.gluonTadpoleThermal Spec.polT om p beta) (m ^ 2) t ∧
      ∀ q, 0 < q → gluon.thermal.polarization_glue_t_thermal_part_landau_i q (ofR om : T) p m beta =
        g q + Spec.ghostLoopThermal Spec.polT om p beta q + t q := by
  have hM : 0 < m ^ 2 := by positivity
  have hsm : Real.sqrt (m ^ 2) = m := Real.sqrt_sq hm.le
  have r : ∀ q, 0 < q → ∀ m m' : ℝ, Spec.RegularLeg q om p m m' := fun q hq => regularLeg_real hq ho p
  obtain ⟨g, t, hg, ht, h⟩ := glue_integral_insertions (fun q => polT_polarised om p q) ho hM hb
    (Imm := fun q M' => thermal.i_m_m_t_i_same_mass q (om : ℂ) p (Real.sqrt M') beta)
    (Im0 := fun q M' => thermal.i_m_0_t_i q (om : ℂ) p (Real.sqrt M') beta)
    (I00 := fun q => thermal.i_0_0_t_i q (om : ℂ) p beta)
    (J := fun q M' => ((thermal.j_m_t_i q (Real.sqrt M') beta : ℝ) : ℂ))
    (J0 := fun q => ((thermal.j_0_t_i q beta : ℝ) : ℂ))
    (dJ := fun q M' => ((thermal.d_j_m_t_i q (Real.sqrt M') beta : ℝ) : ℂ))
    (fun q hq M' hM' => by
      have e := C62_i_m_m_t_i_same_mass (om := (om : ℂ)) (p := p) (m := Real.sqrt M') hq.ne' hp
        ⟨by simpa using r q hq _ _, by simpa using r q hq _ _⟩ beta
      simp only [toC_real, toC_complex] at e
      exact e.symm)
    (fun q hq M' hM' => by
      have e := C62_i_m_0_t_i (om := (om : ℂ)) (p := p) (m := Real.sqrt M') hq hp
        ⟨by simpa using r q hq _ 0, by simpa using r q hq 0 _⟩ beta
      simp only [toC_real, toC_complex] at e
      exact e.symm)
    (fun q hq => by
      have e := C62_i_0_0_t_i (om := (om : ℂ)) (p := p) hq hp ⟨by simpa using r q hq 0 0, by simpa using r q hq 0 0⟩ beta
      simp only [toC_complex] at e
      exact e.symm)
    (fun q hq M' hM' => by
      have e := C62_tadpoles q (Real.sqrt M') beta
      simp only [toC_real] at e
      exact e.2.2.symm)
    (fun q hq => (C62_tadpoles_massless hq beta).2.2.symm)
    (i82_same_t ho hp hM hb) (i82_zero_t ho hp hM hb)
    (fun M' hM' => (i82_j_t hM' hb)) (i82_dj_t hM hb)
    (scalar_loops ho hp).1 (scalar_loops ho hp).2 (i82_same ho hp hM hb) (i82_zero ho hp hM hb) (int_i_0_0_t ho hb) (int_j_0_t hb)
  refine ⟨g, t, hg, ht, fun q hq => ?_⟩
  rw [h q hq, toC_gluon_thermal_polarization_glue_t_thermal_part_landau_i, toC_ofR]
  simp only [gluon.thermal.polarization_glue_t_thermal_part_landau_i, toC_complex, ofR_complex, hsm]
  push_cast
  have hm0 : (m : ℂ) ≠ 0 := by exact_mod_cast hm.ne'
  clear h hg ht r
  rw [show (om : ℂ) * om + (p : ℂ) * p = (om : ℂ) ^ 2 + (p : ℂ) ^ 2 by ring]
  generalize (om : ℂ) ^ 2 + (p : ℂ) ^ 2 = s at *
  generalize thermal.i_0_0_t_i q (om : ℂ) p beta = a0
  generalize thermal.i_m_m_t_i_same_mass q (om : ℂ) p m beta = a1
  generalize thermal.i_m_0_t_i q (om : ℂ) p m beta = a2
  generalize thermal.i_m_m_i_same_mass q (om : ℂ) p m beta = a3
  generalize thermal.i_m_0_i q (om : ℂ) p m beta = a4
  generalize thermal.d_i_m_m_t_i_same_mass q (om : ℂ) p m beta = a5
  generalize thermal.d_i_m_0_t_i q (om : ℂ) p m beta = a6
  generalize thermal.d_i_m_m_i_same_mass q (om : ℂ) p m beta = a7
  generalize thermal.d_i_m_0_i q (om : ℂ) p m beta = a8
  field_simp
  ring

/-! ### The integrated functions -/

/-- **C83**: the thermal part of the ghost self-energy is the thermal part of the one-loop diagram with at most one insertion. -/
theorem C83_ghost_self_energy (k : consts.Consts ℝ) {om p m beta : ℝ} {l : ℤ} (ho : om = 2 * Real.pi * l / beta) (hl : l ≠ 0) (hp : p ≠ 0) (hm : 0 < m)
    (hb : 0 < beta) :
    ∃ D : ℝ → ℂ, Spec.IsThermalFamily (fun M => Spec.ghostSelfEnergy (Spec.external om p) M) beta D ∧
      Spec.HasOneInsertion D (m ^ 2) (ghost.thermal.self_energy_thermal_part_landau .exact k (ofR om : T) p m beta) := by
  refine ⟨fun M => ∫ q in Ioi (0 : ℝ), Spec.ghostSelfEnergyThermal om p beta q M, fun M hM => (C81_ghost_self_energy ho hl hb hM).2, ?_⟩
  have := (ghost_integral_insertion (T := T) (freq ho hl hb).1 hp hm hb).insertion.2
  rwa [← compactify_cplx] at this

/-- **C83**: the longitudinal thermal polarization is the sum of the thermal parts of the gluon loop (at most one insertion), the ghost
loop and the tadpole (at most two insertions). -/
theorem C83_polarization_glue_l (k : consts.Consts ℝ) {om p m beta : ℝ} {l : ℤ} (ho : om = 2 * Real.pi * l / beta) (hl : l ≠ 0) (hp : p ≠ 0) (hm : 0 < m)
    (hb : 0 < beta) :
    ∃ (D E : ℝ → ℂ) (g h t : ℂ),
      Spec.IsThermalFamily (fun M Q => Spec.average (Spec.polL om p) fun e => Spec.gluonLoop e (Spec.external om p) M Q) beta D ∧
      Spec.IsThermalDiagram (fun Q => Spec.average (Spec.polL om p) fun e => Spec.ghostLoop e (Spec.external om p) Q) beta h ∧
      Spec.IsThermalFamily (fun M Q => Spec.average (Spec.polL om p) fun e => Spec.gluonTadpole e M Q) beta E ∧
      Spec.HasOneInsertion D (m ^ 2) g ∧ Spec.HasTwoInsertions E (m ^ 2) t ∧
      gluon.thermal.polarization_glue_l_thermal_part_landau .exact k (ofR om : T1) (ofR p : T2) m beta = g + h + t := by
  obtain ⟨g, t, hg, ht, e⟩ := glue_l_integral (T1 := T1) (T2 := T2) (freq ho hl hb).1 hp hm hb
  have h1 := hg.insertion
  have h2 := ht.insertion (by positivity)
  have h3 := (C81_polarization_l (p := p) ho hl hb one_pos).2.1
  refine ⟨_, _, _, _, _, fun M hM => (C81_polarization_l ho hl hb hM).1.2, h3.2, fun M hM => (C81_polarization_l ho hl hb hM).2.2.2, h1.2, h2.2, ?_⟩
  refine (compactify_cplx fun q => gluon.thermal.polarization_glue_l_thermal_part_landau_i q (ofR om : T1) (ofR p : T2) m beta).trans ?_
  rw [setIntegral_congr_fun measurableSet_Ioi fun q hq => e q hq]
  have a : IntegrableOn (fun q => g q + Spec.ghostLoopThermal (Spec.polL om p) om p beta q) (Ioi 0) := h1.1.add h3.1
  rw [integral_add a h2.1, integral_add h1.1 h3.1]

/-- **C83**: the same for the transverse polarization. -/
theorem C83_polarization_glue_t (k : consts.Consts ℝ) {om p m beta : ℝ} {l : ℤ} (ho : om = 2 * Real.pi * l / beta) (hl : l ≠ 0) (hp : p ≠ 0) (hm : 0 < m)
    (hb : 0 < beta) :
    ∃ (D E : ℝ → ℂ) (g h t : ℂ),
      Spec.IsThermalFamily (fun M Q => Spec.average Spec.polT fun e => Spec.gluonLoop e (Spec.external om p) M Q) beta D ∧
      Spec.IsThermalDiagram (fun Q => Spec.average Spec.polT fun e => Spec.ghostLoop e (Spec.external om p) Q) beta h ∧
      Spec.IsThermalFamily (fun M Q => Spec.average Spec.polT fun e => Spec.gluonTadpole e M Q) beta E ∧
      Spec.HasOneInsertion D (m ^ 2) g ∧ Spec.HasTwoInsertions E (m ^ 2) t ∧
      gluon.thermal.polarization_glue_t_thermal_part_landau .exact k (ofR om : T) p m beta = g + h + t := by
  obtain ⟨g, t, hg, ht, e⟩ := glue_t_integral (T := T) (freq ho hl hb).1 hp hm hb
  have h1 := hg.insertion
  have h2 := ht.insertion (by positivity)
  have h3 := (C81_polarization_t (p := p) ho hl hb one_pos).2.1
  refine ⟨_, _, _, _, _, fun M hM => (C81_polarization_t ho hl hb hM).1.2, h3.2, fun M hM => (C81_polarization_t ho hl hb hM).2.2.2, h1.2, h2.2, ?_⟩
  refine (compactify_cplx fun q => gluon.thermal.polarization_glue_t_thermal_part_landau_i q (ofR om : T) p m beta).trans ?_
  rw [setIntegral_congr_fun measurableSet_Ioi fun q hq => e q hq]
  have a : IntegrableOn (fun q => g q + Spec.ghostLoopThermal Spec.polT om p beta q) (Ioi 0) := h1.1.add h3.1
  rw [integral_add a h2.1, integral_add h1.1 h3.1]

/-! ### Concrete cases -/

example (k : consts.Consts ℝ) : ∃ D : ℝ → ℂ,
    Spec.IsThermalFamily (fun M => Spec.ghostSelfEnergy (Spec.external (2 * Real.pi * (1 : ℤ) / 1 : ℝ) (3 : ℝ)) M) 1 D ∧
      Spec.HasOneInsertion D ((1 / 2) ^ 2)
        (ghost.thermal.self_energy_thermal_part_landau .exact k (ofR (2 * Real.pi * (1 : ℤ) / 1) : ℝ) 3 (1 / 2) 1) := by
  have := C83_ghost_self_energy (T := ℝ) k (om := 2 * Real.pi * (1 : ℤ) / 1) (p := 3) (m := 1 / 2) rfl one_ne_zero (by norm_num) (by norm_num) one_pos
  exact_mod_cast this

end Qcd
