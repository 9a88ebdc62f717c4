import Verif.Lemmas.DiagramAssembly

/-! # C70, C71: the thermal ghost self-energy and gluon polarization are the one-loop diagrams of the massive expansion

Specification: `Verif/Spec/Diagrams.lean`. `om`, `p` are real, passed to the library as `R` or as `C`. -/

set_option linter.unusedSimpArgs false

namespace Qcd
open Filter Topology

variable {T T1 T2 : Type} [Num T] [Num T1] [Num T2]

theorem ghostSelfEnergyThermal_model {om p q M beta : ℝ} (hq : 0 < q) (ho : om ≠ 0) (hp : p ≠ 0) (hM : 0 < M) :
    Spec.ghostSelfEnergyThermal om p beta q M =
      -((om : ℂ) ^ 2 + (p : ℂ) ^ 2 + M) ^ 2 / (4 * M) * thermal.i_m_0_i q (om : ℂ) p (Real.sqrt M) beta
      + ((om : ℂ) ^ 2 + (p : ℂ) ^ 2) ^ 2 / (4 * M) * thermal.i_0_0_i q (om : ℂ) p beta
      + ((om : ℂ) ^ 2 + (p : ℂ) ^ 2 - M) / (4 * M) * (((thermal.j_m_i q (Real.sqrt M) beta : ℝ) : ℂ) - ((thermal.j_0_i q beta : ℝ) : ℂ)) := by
  have r : ∀ m m' : ℝ, Spec.RegularLeg q om p m m' := regularLeg_real hq ho p
  have r0 : Spec.Regular q om p (Real.sqrt M : ℝ) 0 := ⟨by simpa using r _ 0, by simpa using r 0 _⟩
  have r00 : Spec.Regular q om p 0 0 := ⟨by simpa using r 0 0, by simpa using r 0 0⟩
  rw [ghostSelfEnergyThermal_eq hq ho hM]
  have e1 := C62_i_m_0_i (om := (om : ℂ)) (p := p) (m := Real.sqrt M) hq hp (by simpa using r0) beta
  have e2 := C62_i_0_0_i (om := (om : ℂ)) (p := p) hq hp (by simpa using r00) beta
  have e3 := (C62_tadpoles q (Real.sqrt M) beta).1
  have e4 := (C62_tadpoles_massless hq beta).1
  simp only [toC_real, toC_complex] at e1 e2 e3
  rw [e1, e2, e3, e4]

/-- **C70**: the thermal part of the ghost self-energy integrand is the one-loop ghost self-energy of the Feynman rules, with at most
one insertion of the two-gluon vertex. -/
theorem C70_ghost_self_energy {om p m beta : ℝ} (ho : om ≠ 0) (hp : p ≠ 0) (hm : 0 < m) (hb : 0 < beta) :
    Spec.WithOneInsertion (Spec.ghostSelfEnergyThermal om p beta) (m ^ 2)
      fun q => ghost.thermal.self_energy_thermal_part_landau_i q (ofR om : T) p m beta := by
  have hM : 0 < m ^ 2 := by positivity
  have hsm : Real.sqrt (m ^ 2) = m := Real.sqrt_sq hm.le
  obtain ⟨s, hs⟩ : ∃ s, s = (om : ℂ) ^ 2 + (p : ℂ) ^ 2 := ⟨_, rfl⟩
  have k1 := (C39_d_i_m_0_i ho hb hM hp).mulCoeff (laurent_deriv 0 (-s ^ 2 / 4) (-s / 2) (-1 / 4) hM)
  have k2 := (Spec.IsMassDerivative.indep (M := m ^ 2) fun q => thermal.i_0_0_i q (om : ℂ) p beta).mulCoeff (laurent_deriv 0 (s ^ 2 / 4) 0 0 hM)
  have k3 := ((C39_tadpoles hb hM).1.add (.indep fun q => -((thermal.j_0_i q beta : ℝ) : ℂ))).mulCoeff (laurent_deriv 0 (s / 4) (-1 / 4) 0 hM)
  refine ⟨_, ((k1.add k2).add k3).congrOn hM ?_ (fun q hq => rfl), ?_⟩
  · intro q hq M' hM'
    have hM0 : (M' : ℂ) ≠ 0 := by exact_mod_cast hM'.ne'
    rw [ghostSelfEnergyThermal_model hq ho hp hM', ← hs]
    generalize thermal.i_m_0_i q (om : ℂ) p (Real.sqrt M') beta = a1
    generalize thermal.i_0_0_i q (om : ℂ) p beta = a2
    field_simp
    ring
  · intro q hq
    have hm0 : (m : ℂ) ≠ 0 := by exact_mod_cast hm.ne'
    beta_reduce
    rw [ghostSelfEnergyThermal_model hq ho hp hM, ← hs, toC_ghost_thermal_self_energy_thermal_part_landau_i, toC_ofR]
    simp only [ghost.thermal.self_energy_thermal_part_landau_i, toC_complex, ofR_complex, hsm]
    push_cast
    rw [show (om : ℂ) * om + (p : ℂ) * p = s by rw [hs]; ring]
    generalize thermal.i_m_0_i q (om : ℂ) p m beta = a1
    generalize thermal.i_0_0_i q (om : ℂ) p beta = a2
    generalize thermal.d_i_m_0_i q (om : ℂ) p m beta = a3
    field_simp
    ring

/-- The diagrams of the polarization, whatever the polarisations of the external gluon. -/
theorem glue_insertions {pol : List Spec.Vec} {om p M beta : ℝ} {V : ℝ → ℂ → ℝ → ℂ} (hV : ∀ q, Polarised pol om p q (V q))
    (ho : om ≠ 0) (hp : p ≠ 0) (hM : 0 < M) (hb : 0 < beta) {Imm Im0 J dJ : ℝ → ℝ → ℂ} {I00 J0 dImm dIm0 d2J : ℝ → ℂ}
    (hImm : ∀ q, 0 < q → ∀ M', 0 < M' → Spec.loop (V q) q om p (Real.sqrt M') (Real.sqrt M') beta = Imm q M')
    (hIm0 : ∀ q, 0 < q → ∀ M', 0 < M' → Spec.loop (V q) q om p (Real.sqrt M') 0 beta = Im0 q M')
    (hI00 : ∀ q, 0 < q → Spec.loop (V q) q om p 0 0 beta = I00 q)
    (hJ : ∀ q, 0 < q → ∀ M', 0 < M' → Spec.tadpole (V q) q (Real.sqrt M') beta = J q M')
    (hJ0 : ∀ q, 0 < q → Spec.tadpole (V q) q 0 beta = J0 q)
    (kImm : Spec.IsMassDerivative Imm dImm M) (kIm0 : Spec.IsMassDerivative Im0 dIm0 M)
    (kJ : ∀ M', 0 < M' → Spec.IsMassDerivative J (fun q => dJ q M') M') (kJ2 : Spec.IsMassDerivative dJ d2J M) :
    ∃ g t : ℝ → ℂ, Spec.WithOneInsertion (Spec.gluonLoopThermal pol om p beta) M g ∧
      Spec.WithTwoInsertions (Spec.gluonTadpoleThermal pol om p beta) M t ∧
      ∀ q, 0 < q → g q + Spec.ghostLoopThermal pol om p beta q + t q =
        (3 * ((om : ℂ) ^ 2 + (p : ℂ) ^ 2) ^ 2 / (2 * (M : ℂ) ^ 2) - 1) * I00 q
        + ((3 * ((om : ℂ) ^ 2 + (p : ℂ) ^ 2) ^ 2 + 8 * ((om : ℂ) ^ 2 + (p : ℂ) ^ 2) * M + 4 * (M : ℂ) ^ 2) / (2 * (M : ℂ) ^ 2) + 4) * Imm q M
        - (3 * ((om : ℂ) ^ 2 + (p : ℂ) ^ 2) ^ 2 + 4 * ((om : ℂ) ^ 2 + (p : ℂ) ^ 2) * M + (M : ℂ) ^ 2) / (M : ℂ) ^ 2 * Im0 q M
        + 2 * ((om : ℂ) ^ 2 + (p : ℂ) ^ 2) * ((om : ℂ) ^ 2 + (p : ℂ) ^ 2 + 2 * M) / M * thermal.i_m_m_i_same_mass q (om : ℂ) p (Real.sqrt M) beta
        - 2 * ((om : ℂ) ^ 2 + (p : ℂ) ^ 2) * ((om : ℂ) ^ 2 + (p : ℂ) ^ 2 + M) / M * thermal.i_m_0_i q (om : ℂ) p (Real.sqrt M) beta
        - (2 * ((om : ℂ) ^ 2 + (p : ℂ) ^ 2) + 3 * M) / M * ((thermal.j_m_i q (Real.sqrt M) beta : ℝ) : ℂ)
        + (2 * ((om : ℂ) ^ 2 + (p : ℂ) ^ 2) + M) / M * ((thermal.j_0_i q beta : ℝ) : ℂ)
        - (((om : ℂ) ^ 2 + (p : ℂ) ^ 2 + 2 * M) ^ 2 / M + 8 * M) * (dImm q / 2)
        + ((om : ℂ) ^ 2 + (p : ℂ) ^ 2 + M) ^ 2 / M * dIm0 q
        - 2 * ((om : ℂ) ^ 2 + (p : ℂ) ^ 2) * ((om : ℂ) ^ 2 + (p : ℂ) ^ 2 + 4 * M) * thermal.d_i_m_m_i_same_mass q (om : ℂ) p (Real.sqrt M) beta
        + ((om : ℂ) ^ 2 + (p : ℂ) ^ 2 + M) ^ 2 * thermal.d_i_m_0_i q (om : ℂ) p (Real.sqrt M) beta
        + ((om : ℂ) ^ 2 + (p : ℂ) ^ 2 + 3 * M) * ((thermal.d_j_m_i q (Real.sqrt M) beta : ℝ) : ℂ)
        - (M : ℂ) ^ 2 * ((thermal.d2_j_m_i q (Real.sqrt M) beta : ℝ) : ℂ)
        + (J q M - J0 q) / M - dJ q M + d2J q * M / 2 := by
  obtain ⟨s, hs⟩ : ∃ s, s = (om : ℂ) ^ 2 + (p : ℂ) ^ 2 := ⟨_, rfl⟩
  have hM0 : (M : ℂ) ≠ 0 := by exact_mod_cast hM.ne'
  have hr : (om : ℂ).re ≠ 0 := by simpa using ho
  have hi : |(om : ℂ).im| < Real.sqrt M := by simpa using hM
  -- the scalar loops and tadpoles
  have e : ∀ q, 0 < q → ∀ M', 0 < M' →
      Spec.loop Spec.scalar q om p (Real.sqrt M') (Real.sqrt M') beta = thermal.i_m_m_i_same_mass q (om : ℂ) p (Real.sqrt M') beta ∧
      Spec.loop Spec.scalar q om p (Real.sqrt M') 0 beta = thermal.i_m_0_i q (om : ℂ) p (Real.sqrt M') beta ∧
      Spec.tadpole Spec.scalar q (Real.sqrt M') beta = ((thermal.j_m_i q (Real.sqrt M') beta : ℝ) : ℂ) := by
    intro q hq M' hM'
    have r : ∀ m m' : ℝ, Spec.RegularLeg q om p m m' := regularLeg_real hq ho p
    have r1 : Spec.Regular q om p (Real.sqrt M' : ℝ) (Real.sqrt M' : ℝ) := ⟨r _ _, r _ _⟩
    have r0 : Spec.Regular q om p (Real.sqrt M' : ℝ) 0 := ⟨by simpa using r _ 0, by simpa using r 0 _⟩
    have e1 := C62_i_m_m_i_same_mass (om := (om : ℂ)) (p := p) (m := Real.sqrt M') hq.ne' hp (by simpa using r1) beta
    have e2 := C62_i_m_0_i (om := (om : ℂ)) (p := p) (m := Real.sqrt M') hq hp (by simpa using r0) beta
    have e3 := (C62_tadpoles q (Real.sqrt M') beta).1
    simp only [toC_real, toC_complex] at e1 e2 e3
    exact ⟨e1.symm, e2.symm, e3.symm⟩
  have e0 : ∀ q, 0 < q → Spec.tadpole Spec.scalar q 0 beta = ((thermal.j_0_i q beta : ℝ) : ℂ) :=
    fun q hq => (C62_tadpoles_massless hq beta).1.symm
  -- gluon loop
  have k1 := kImm.mulCoeff (laurent_deriv (s ^ 2 / 2) (2 * s) 6 0 hM)
  have k2 := kIm0.mulCoeff (laurent_deriv (-s ^ 2) (-2 * s) (-1) 0 hM)
  have k3 := (Spec.IsMassDerivative.indep (M := M) I00).mulCoeff (laurent_deriv (s ^ 2 / 2) 0 0 0 hM)
  have k4 := ((kJ M hM).add (.indep fun q => -J0 q)).mulCoeff (laurent_deriv 0 (-1) 0 0 hM)
  have k5 := (C39_d_i_m_m_i_same_mass_total hr hb hM hp hi).mulCoeff (laurent_deriv 0 (s ^ 2) (4 * s) 0 hM)
  have k6 := (C39_d_i_m_0_i ho hb hM hp).mulCoeff (laurent_deriv 0 (-s ^ 2) (-2 * s) (-1) hM)
  have k7 := ((C39_tadpoles hb hM).1.add (.indep fun q => -((thermal.j_0_i q beta : ℝ) : ℂ))).mulCoeff (laurent_deriv 0 (-s) (-1) 0 hM)
  have kL := ((((((k1.add k2).add k3).add k4).add k5).add k6).add k7)
  -- tadpole
  have t1 := fun (M' : ℝ) (hM' : 0 < M') => (C39_tadpoles hb hM').1.mulCoeff (hasDerivAt_const M' (-2 : ℂ))
  have t2 := fun (M' : ℝ) (hM' : 0 < M') => ((kJ M' hM').add (.indep fun q => -J0 q)).mulCoeff (laurent_deriv 0 1 0 0 hM')
  have u1 : Spec.IsMassDerivative (fun q M => ((thermal.d_j_m_i q (Real.sqrt M) beta : ℝ) : ℂ))
      (fun q => ((thermal.d2_j_m_i q (Real.sqrt M) beta : ℝ) : ℂ)) M :=
    .pointwise fun q hq => (C39_second_derivatives hb hM).1.ofReal_comp
  have u2 := u1.mulCoeff (hasDerivAt_const M (-2 : ℂ))
  have u3 := ((kJ M hM).add (.indep fun q => -J0 q)).mulCoeff (laurent_deriv (-1) 0 0 0 hM)
  have u4 := kJ2.mulCoeff (laurent_deriv 0 1 0 0 hM)
  refine ⟨_, _, ⟨_, kL.congrOn hM ?_ (fun q hq => rfl), fun q hq => rfl⟩,
    ⟨fun q M' => -2 * ((thermal.d_j_m_i q (Real.sqrt M') beta : ℝ) : ℂ) - 1 / (M' : ℂ) ^ 2 * (J q M' - J0 q) + 1 / (M' : ℂ) * dJ q M', _,
      fun M' hM' => ((t1 M' hM').add (t2 M' hM')).congrOn hM' ?_ ?_, ((u2.add u3).add u4).congrOn hM ?_ (fun q hq => rfl), fun q hq => rfl⟩, ?_⟩
  · intro q hq M' hM'
    have hM0 : (M' : ℂ) ≠ 0 := by exact_mod_cast hM'.ne'
    obtain ⟨e1, e2, e3⟩ := e q hq M' hM'
    rw [gluonLoopThermal_eq (hV q) hq ho hM', hImm q hq M' hM', hIm0 q hq M' hM', hI00 q hq, hJ q hq M' hM', hJ0 q hq, e1, e2, e3, e0 q hq, ← hs]
    generalize thermal.i_m_0_i q (om : ℂ) p (Real.sqrt M') beta = a1
    generalize thermal.i_m_m_i_same_mass q (om : ℂ) p (Real.sqrt M') beta = a2
    field_simp
    ring
  · intro q hq M'' hM''
    obtain ⟨e1, e2, e3⟩ := e q hq M'' hM''
    rw [gluonTadpoleThermal_eq (hV q) hq hM'', hJ q hq M'' hM'', hJ0 q hq, e3]
    ring
  · intro q hq
    ring
  · intro q hq M' hM'
    ring
  · intro q hq
    obtain ⟨e1, e2, e3⟩ := e q hq M hM
    rw [gluonLoopThermal_eq (hV q) hq ho hM, ghostLoopThermal_eq (hV q) hq ho, gluonTadpoleThermal_eq (hV q) hq hM, hImm q hq M hM, hIm0 q hq M hM,
      hI00 q hq, hJ q hq M hM, hJ0 q hq, e1, e2, e3, e0 q hq, ← hs]
    generalize thermal.i_m_0_i q (om : ℂ) p (Real.sqrt M) beta = a1
    generalize thermal.i_m_m_i_same_mass q (om : ℂ) p (Real.sqrt M) beta = a2
    generalize thermal.d_i_m_0_i q (om : ℂ) p (Real.sqrt M) beta = a3
    generalize thermal.d_i_m_m_i_same_mass q (om : ℂ) p (Real.sqrt M) beta = a4
    field_simp
    ring

theorem sum_sq_ne {om : ℝ} (ho : om ≠ 0) (p : ℝ) : (om : ℂ) ^ 2 + (p : ℂ) ^ 2 ≠ 0 := by
  have : 0 < om ^ 2 + p ^ 2 := by positivity
  exact_mod_cast this.ne'

/-- **C71**: the longitudinal thermal polarization integrand is the sum of the gluon loop (at most one insertion of the two-gluon
vertex), the ghost loop and the tadpole (at most two insertions), projected on the longitudinal polarisation. -/
theorem C71_polarization_glue_l {om p m beta : ℝ} (ho : om ≠ 0) (hp : p ≠ 0) (hm : 0 < m) (hb : 0 < beta) :
    ∃ g t : ℝ → ℂ, Spec.WithOneInsertion (Spec.gluonLoopThermal (Spec.polL om p) om p beta) (m ^ 2) g ∧
      Spec.WithTwoInsertions (Spec.gluonTadpoleThermal (Spec.polL om p) om p beta) (m ^ 2) t ∧
      ∀ q, 0 < q → gluon.thermal.polarization_glue_l_thermal_part_landau_i q (ofR om : T1) (ofR p : T2) m beta =
        g q + Spec.ghostLoopThermal (Spec.polL om p) om p beta q + t q := by
  have hM : 0 < m ^ 2 := by positivity
  have hsm : Real.sqrt (m ^ 2) = m := Real.sqrt_sq hm.le
  have hs := sum_sq_ne ho p
  have hr : (om : ℂ).re ≠ 0 := by simpa using ho
  have ho' : (om : ℂ) ≠ 0 := by exact_mod_cast ho
  have hi : |(om : ℂ).im| < Real.sqrt (m ^ 2) := by simpa using hM
  have r : ∀ q, 0 < q → ∀ m m' : ℝ, Spec.RegularLeg q om p m m' := fun q hq => regularLeg_real hq ho p
  have tt := fun (M' : ℝ) (hM' : 0 < M') => ((C39_tadpoles hb hM').2.2.1.mulCoeff (hasDerivAt_const M' ((om : ℂ) ^ 2 / ((om : ℂ) ^ 2 + (p : ℂ) ^ 2)))).add
    ((C39_tadpoles hb hM').2.1.mulCoeff (hasDerivAt_const M' ((p : ℂ) ^ 2 / ((om : ℂ) ^ 2 + (p : ℂ) ^ 2))))
  have u1 : Spec.IsMassDerivative (fun q M => ((thermal.d_j_m_l_i q (Real.sqrt M) beta : ℝ) : ℂ))
      (fun q => ((thermal.d2_j_m_l_i q (Real.sqrt (m ^ 2)) beta : ℝ) : ℂ)) (m ^ 2) :=
    .pointwise fun q hq => (C39_second_derivatives hb hM).2.ofReal_comp
  have u2 := ((C39_tadpoles hb hM).2.2.2.mulCoeff (hasDerivAt_const _ ((om : ℂ) ^ 2 / ((om : ℂ) ^ 2 + (p : ℂ) ^ 2)))).add
    (u1.mulCoeff (hasDerivAt_const _ ((p : ℂ) ^ 2 / ((om : ℂ) ^ 2 + (p : ℂ) ^ 2))))
  obtain ⟨g, t, hg, ht, h⟩ := glue_insertions (fun q => polL_polarised hs q) ho hp hM hb
    (Imm := fun q M' => thermal.i_m_m_l_i_same_mass q (om : ℂ) p (Real.sqrt M') beta)
    (Im0 := fun q M' => thermal.i_m_0_l_i q (om : ℂ) p (Real.sqrt M') beta)
    (I00 := fun q => thermal.i_0_0_l_i q (om : ℂ) p beta)
    (J := fun q M' => (om : ℂ) ^ 2 / ((om : ℂ) ^ 2 + (p : ℂ) ^ 2) * ((thermal.j_m_t_i q (Real.sqrt M') beta : ℝ) : ℂ)
      + (p : ℂ) ^ 2 / ((om : ℂ) ^ 2 + (p : ℂ) ^ 2) * ((thermal.j_m_l_i q (Real.sqrt M') beta : ℝ) : ℂ))
    (J0 := fun q => (om : ℂ) ^ 2 / ((om : ℂ) ^ 2 + (p : ℂ) ^ 2) * ((thermal.j_0_t_i q beta : ℝ) : ℂ)
      + (p : ℂ) ^ 2 / ((om : ℂ) ^ 2 + (p : ℂ) ^ 2) * ((thermal.j_0_l_i q beta : ℝ) : ℂ))
    (dJ := fun q M' => (om : ℂ) ^ 2 / ((om : ℂ) ^ 2 + (p : ℂ) ^ 2) * ((thermal.d_j_m_t_i q (Real.sqrt M') beta : ℝ) : ℂ)
      + (p : ℂ) ^ 2 / ((om : ℂ) ^ 2 + (p : ℂ) ^ 2) * ((thermal.d_j_m_l_i q (Real.sqrt M') beta : ℝ) : ℂ))
    (fun q hq M' hM' => by
      have e := C62_i_m_m_l_i_same_mass (om := (om : ℂ)) (p := p) (m := Real.sqrt M') hq.ne' hp ho'
        ⟨by simpa using r q hq _ _, by simpa using r q hq _ _⟩ beta
      simp only [toC_real, toC_complex] at e
      exact e.symm)
    (fun q hq M' hM' => by
      have e := C62_i_m_0_l_i (om := (om : ℂ)) (p := p) (m := Real.sqrt M') hq hp ho'
        ⟨by simpa using r q hq _ 0, by simpa using r q hq 0 _⟩ beta
      simp only [toC_real, toC_complex] at e
      exact e.symm)
    (fun q hq => by
      have e := C62_i_0_0_l_i (om := (om : ℂ)) (p := p) hq hp ho' ⟨by simpa using r q hq 0 0, by simpa using r q hq 0 0⟩ beta
      simp only [toC_real, toC_complex] at e
      exact e.symm)
    (fun q hq M' hM' => by
      have e := C62_tadpoles q (Real.sqrt M') beta
      simp only [toC_real] at e
      rw [tadpole_longitudinal q hs, e.2.1, e.2.2]; ring)
    (fun q hq => by
      have e := C62_tadpoles_massless hq beta
      rw [tadpole_longitudinal q hs, e.2.1, e.2.2]; ring)
    (C39_d_i_m_m_l_i_same_mass_total hr hb hM hp hi) (C39_d_i_m_0_l_i ho hb hM hp)
    (fun M' hM' => (tt M' hM').congrOn hM' (fun q _ M'' _ => rfl) fun q _ => by ring)
    (u2.congrOn hM (fun q _ M' _ => rfl) fun q _ => rfl)
  refine ⟨g, t, hg, ht, fun q hq => ?_⟩
  rw [h q hq, toC_gluon_thermal_polarization_glue_l_thermal_part_landau_i, toC_ofR, toC_ofR]
  simp only [gluon.thermal.polarization_glue_l_thermal_part_landau_i, toC_complex, ofR_complex, hsm]
  push_cast
  have hm0 : (m : ℂ) ≠ 0 := by exact_mod_cast hm.ne'
  rw [show (om : ℂ) * om + (p : ℂ) * p = (om : ℂ) ^ 2 + (p : ℂ) ^ 2 by ring]
  have c : thermal.i_0_0_l_i q (om : ℂ) (p : ℂ) beta = thermal.i_0_0_l_i q (om : ℂ) p beta ∧
      thermal.i_m_m_l_i_same_mass q (om : ℂ) (p : ℂ) m beta = thermal.i_m_m_l_i_same_mass q (om : ℂ) p m beta ∧
      thermal.i_m_0_l_i q (om : ℂ) (p : ℂ) m beta = thermal.i_m_0_l_i q (om : ℂ) p m beta ∧
      thermal.i_m_m_i_same_mass q (om : ℂ) (p : ℂ) m beta = thermal.i_m_m_i_same_mass q (om : ℂ) p m beta ∧
      thermal.i_m_0_i q (om : ℂ) (p : ℂ) m beta = thermal.i_m_0_i q (om : ℂ) p m beta ∧
      thermal.d_i_m_m_l_i_same_mass q (om : ℂ) (p : ℂ) m beta = thermal.d_i_m_m_l_i_same_mass q (om : ℂ) p m beta ∧
      thermal.d_i_m_0_l_i q (om : ℂ) (p : ℂ) m beta = thermal.d_i_m_0_l_i q (om : ℂ) p m beta ∧
      thermal.d_i_m_m_i_same_mass q (om : ℂ) (p : ℂ) m beta = thermal.d_i_m_m_i_same_mass q (om : ℂ) p m beta ∧
      thermal.d_i_m_0_i q (om : ℂ) (p : ℂ) m beta = thermal.d_i_m_0_i q (om : ℂ) p m beta :=
    ⟨(toC_thermal_i_0_0_l_i q (om : ℂ) (p : ℂ) beta).trans (toC_thermal_i_0_0_l_i q (om : ℂ) p beta).symm,
      (toC_thermal_i_m_m_l_i_same_mass q (om : ℂ) (p : ℂ) m beta).trans (toC_thermal_i_m_m_l_i_same_mass q (om : ℂ) p m beta).symm,
      (toC_thermal_i_m_0_l_i q (om : ℂ) (p : ℂ) m beta).trans (toC_thermal_i_m_0_l_i q (om : ℂ) p m beta).symm,
      (toC_thermal_i_m_m_i_same_mass q (om : ℂ) (p : ℂ) m beta).trans (toC_thermal_i_m_m_i_same_mass q (om : ℂ) p m beta).symm,
      (toC_thermal_i_m_0_i q (om : ℂ) (p : ℂ) m beta).trans (toC_thermal_i_m_0_i q (om : ℂ) p m beta).symm,
      (toC_thermal_d_i_m_m_l_i_same_mass q (om : ℂ) (p : ℂ) m beta).trans (toC_thermal_d_i_m_m_l_i_same_mass q (om : ℂ) p m beta).symm,
      (toC_thermal_d_i_m_0_l_i q (om : ℂ) (p : ℂ) m beta).trans (toC_thermal_d_i_m_0_l_i q (om : ℂ) p m beta).symm,
      (toC_thermal_d_i_m_m_i_same_mass q (om : ℂ) (p : ℂ) m beta).trans (toC_thermal_d_i_m_m_i_same_mass q (om : ℂ) p m beta).symm,
      (toC_thermal_d_i_m_0_i q (om : ℂ) (p : ℂ) m beta).trans (toC_thermal_d_i_m_0_i q (om : ℂ) p m beta).symm⟩
  obtain ⟨c1, c2, c3, c4, c5, c6, c7, c8, c9⟩ := c
  simp only [c1, c2, c3, c4, c5, c6, c7, c8, c9]
  clear c1 c2 c3 c4 c5 c6 c7 c8 c9 u1 u2 tt h hg ht r hi hr
  generalize (om : ℂ) ^ 2 + (p : ℂ) ^ 2 = s at *
  generalize thermal.i_0_0_l_i q (om : ℂ) p beta = a0
  generalize thermal.i_m_m_l_i_same_mass q (om : ℂ) p m beta = a1
  generalize thermal.i_m_0_l_i q (om : ℂ) p m beta = a2
  generalize thermal.i_m_m_i_same_mass q (om : ℂ) p m beta = a3
  generalize thermal.i_m_0_i q (om : ℂ) p m beta = a4
  generalize thermal.d_i_m_m_l_i_same_mass q (om : ℂ) p m beta = a5
  generalize thermal.d_i_m_0_l_i q (om : ℂ) p m beta = a6
  generalize thermal.d_i_m_m_i_same_mass q (om : ℂ) p m beta = a7
  generalize thermal.d_i_m_0_i q (om : ℂ) p m beta = a8
  field_simp
  ring

/-- **C71**: the same for the transverse thermal polarization integrand, averaged over the two transverse polarisations. -/
theorem C71_polarization_glue_t {om p m beta : ℝ} (ho : om ≠ 0) (hp : p ≠ 0) (hm : 0 < m) (hb : 0 < beta) :
    ∃ g t : ℝ → ℂ, Spec.WithOneInsertion (Spec.gluonLoopThermal Spec.polT om p beta) (m ^ 2) g ∧
      Spec.WithTwoInsertions (Spec.gluonTadpoleThermal Spec.polT om p beta) (m ^ 2) t ∧
      ∀ q, 0 < q → gluon.thermal.polarization_glue_t_thermal_part_landau_i q (ofR om : T) p m beta =
        g q + Spec.ghostLoopThermal Spec.polT om p beta q + t q := by
  have hM : 0 < m ^ 2 := by positivity
  have hsm : Real.sqrt (m ^ 2) = m := Real.sqrt_sq hm.le
  have hr : (om : ℂ).re ≠ 0 := by simpa using ho
  have hi : |(om : ℂ).im| < Real.sqrt (m ^ 2) := by simpa using hM
  have r : ∀ q, 0 < q → ∀ m m' : ℝ, Spec.RegularLeg q om p m m' := fun q hq => regularLeg_real hq ho p
  obtain ⟨g, t, hg, ht, h⟩ := glue_insertions (fun q => polT_polarised om p q) ho hp hM hb
    (Imm := fun q M' => thermal.i_m_m_t_i_same_mass q (om : ℂ) p (Real.sqrt M') beta)
    (Im0 := fun q M' => thermal.i_m_0_t_i q (om : ℂ) p (Real.sqrt M') beta)
    (I00 := fun q => thermal.i_0_0_t_i q (om : ℂ) p beta)
    (J := fun q M' => ((thermal.j_m_t_i q (Real.sqrt M') beta : ℝ) : ℂ))
    (J0 := fun q => ((thermal.j_0_t_i q beta : ℝ) : ℂ))
    (dJ := fun q M' => ((thermal.d_j_m_t_i q (Real.sqrt M') beta : ℝ) : ℂ))
    (fun q hq M' hM' => by
      have e := C62_i_m_m_t_i_same_mass (om := (om : ℂ)) (p := p) (m := Real.sqrt M') hq.ne' hp
        ⟨by simpa using r q hq _ _, by simpa using r q hq _ _⟩ beta
      simp only [toC_real, toC_complex] at e
      exact e.symm)
    (fun q hq M' hM' => by
      have e := C62_i_m_0_t_i (om := (om : ℂ)) (p := p) (m := Real.sqrt M') hq hp
        ⟨by simpa using r q hq _ 0, by simpa using r q hq 0 _⟩ beta
      simp only [toC_real, toC_complex] at e
      exact e.symm)
    (fun q hq => by
      have e := C62_i_0_0_t_i (om := (om : ℂ)) (p := p) hq hp ⟨by simpa using r q hq 0 0, by simpa using r q hq 0 0⟩ beta
      simp only [toC_complex] at e
      exact e.symm)
    (fun q hq M' hM' => by
      have e := C62_tadpoles q (Real.sqrt M') beta
      simp only [toC_real] at e
      exact e.2.2.symm)
    (fun q hq => (C62_tadpoles_massless hq beta).2.2.symm)
    (C39_d_i_m_m_t_i_same_mass_total hr hb hM hp hi) (C39_d_i_m_0_t_i ho hb hM hp)
    (fun M' hM' => (C39_tadpoles hb hM').2.2.1) (C39_tadpoles hb hM).2.2.2
  refine ⟨g, t, hg, ht, fun q hq => ?_⟩
  rw [h q hq, toC_gluon_thermal_polarization_glue_t_thermal_part_landau_i, toC_ofR]
  simp only [gluon.thermal.polarization_glue_t_thermal_part_landau_i, toC_complex, ofR_complex, hsm]
  push_cast
  have hm0 : (m : ℂ) ≠ 0 := by exact_mod_cast hm.ne'
  clear h hg ht r hi hr
  rw [show (om : ℂ) * om + (p : ℂ) * p = (om : ℂ) ^ 2 + (p : ℂ) ^ 2 by ring]
  generalize (om : ℂ) ^ 2 + (p : ℂ) ^ 2 = s at *
  generalize thermal.i_0_0_t_i q (om : ℂ) p beta = a0
  generalize thermal.i_m_m_t_i_same_mass q (om : ℂ) p m beta = a1
  generalize thermal.i_m_0_t_i q (om : ℂ) p m beta = a2
  generalize thermal.i_m_m_i_same_mass q (om : ℂ) p m beta = a3
  generalize thermal.i_m_0_i q (om : ℂ) p m beta = a4
  generalize thermal.d_i_m_m_t_i_same_mass q (om : ℂ) p m beta = a5
  generalize thermal.d_i_m_0_t_i q (om : ℂ) p m beta = a6
  generalize thermal.d_i_m_m_i_same_mass q (om : ℂ) p m beta = a7
  generalize thermal.d_i_m_0_i q (om : ℂ) p m beta = a8
  field_simp
  ring

/-! ### A case which meets the hypotheses; the polarisations are unit vectors orthogonal to the external momentum -/

example : Spec.WithOneInsertion (Spec.ghostSelfEnergyThermal (2 : ℝ) (3 : ℝ) 1) (1 ^ 2)
    fun q => ghost.thermal.self_energy_thermal_part_landau_i q (ofR 2 : ℝ) 3 1 1 :=
  C70_ghost_self_energy (by norm_num) (by norm_num) (by norm_num) (by norm_num)

example : ∃ g t : ℝ → ℂ, Spec.WithOneInsertion (Spec.gluonLoopThermal Spec.polT (2 : ℝ) (3 : ℝ) 1) (1 ^ 2) g ∧
    Spec.WithTwoInsertions (Spec.gluonTadpoleThermal Spec.polT (2 : ℝ) (3 : ℝ) 1) (1 ^ 2) t ∧
    ∀ q, 0 < q → gluon.thermal.polarization_glue_t_thermal_part_landau_i q (ofR 2 : ℂ) 3 1 1 =
      g q + Spec.ghostLoopThermal Spec.polT (2 : ℝ) (3 : ℝ) 1 q + t q :=
  C71_polarization_glue_t (by norm_num) (by norm_num) (by norm_num) (by norm_num)

example : ∀ e ∈ Spec.polL (2 : ℝ) (3 : ℝ), e ⬝ᵥ e = 1 ∧ e ⬝ᵥ Spec.external (2 : ℝ) (3 : ℝ) = 0 :=
  fun e he => ⟨(polL_polarised (sum_sq_ne (by norm_num) 3) 1).unit e he, (polL_polarised (sum_sq_ne (by norm_num) 3) 1).orth e he⟩

end Qcd
