import Verif.Props.MassIntegralZero
import Verif.Props.IntegratedDiagrams

/-! # C90: the integrated self-energies at zero momentum are one-loop diagrams of the massive expansion at finite temperature

Specification: `Verif/Spec/Insertions.lean`. The spatial momentum of the external line vanishes; its frequency is a Matsubara frequency, not
zero. The numerical integrator is taken to be exact. -/

set_option linter.unusedSimpArgs false

namespace Qcd
open Set MeasureTheory Filter Topology
open Spec (IsIntegralDerivative)

variable {T T1 T2 : Type} [Num T] [Num T1] [Num T2]

section
variable {om M beta : ℝ}

theorem i90_same (ho : om ≠ 0) (hM : 0 < M) (hb : 0 < beta) :
    IsIntegralDerivative (fun q M' => thermal.zero_momentum.i_m_m_i_same_mass q (om : ℂ) (Real.sqrt M') beta)
      (fun q => 2 * thermal.zero_momentum.d_i_m_m_i_same_mass q (om : ℂ) (Real.sqrt M) beta) M := C90_d_i_m_m_i_same_mass (T1 := ℂ) ho hM hb

theorem i90_zero (ho : om ≠ 0) (hM : 0 < M) (hb : 0 < beta) :
    IsIntegralDerivative (fun q M' => thermal.zero_momentum.i_m_0_i q (om : ℂ) (Real.sqrt M') beta)
      (fun q => thermal.zero_momentum.d_i_m_0_i q (om : ℂ) (Real.sqrt M) beta) M := C90_d_i_m_0_i (T1 := ℂ) ho hM hb

theorem i90_same_l (ho : om ≠ 0) (hM : 0 < M) (hb : 0 < beta) :
    IsIntegralDerivative (fun q M' => thermal.zero_momentum.i_m_m_l_i_same_mass q (om : ℂ) (Real.sqrt M') beta)
      (fun q => 2 * thermal.zero_momentum.d_i_m_m_l_i_same_mass q (om : ℂ) (Real.sqrt M) beta) M := C90_d_i_m_m_l_i_same_mass (T1 := ℂ) ho hM hb

theorem i90_zero_l (ho : om ≠ 0) (hM : 0 < M) (hb : 0 < beta) :
    IsIntegralDerivative (fun q M' => thermal.zero_momentum.i_m_0_l_i q (om : ℂ) (Real.sqrt M') beta)
      (fun q => thermal.zero_momentum.d_i_m_0_l_i q (om : ℂ) (Real.sqrt M) beta) M := C90_d_i_m_0_l_i (T1 := ℂ) ho hM hb

theorem int_zm_i_0_0 (ho : om ≠ 0) (hb : 0 < beta) : IntegrableOn (fun q => thermal.zero_momentum.i_0_0_i q (om : ℂ) beta) (Ioi 0) := by
  have := (dom_zm_i_0_0_i hb ho).integrable hb le_rfl
  simpa only [toC_thermal_zero_momentum_i_0_0_i _ om, toC_thermal_zero_momentum_i_0_0_i _ (om : ℂ), toC_real, toC_complex] using this

theorem int_zm_i_0_0_l (ho : om ≠ 0) (hb : 0 < beta) : IntegrableOn (fun q => thermal.zero_momentum.i_0_0_l_i q (om : ℂ) beta) (Ioi 0) := by
  have := (dom_zm_i_0_0_l_i hb ho).integrable hb le_rfl
  simpa only [toC_thermal_zero_momentum_i_0_0_l_i _ om, toC_thermal_zero_momentum_i_0_0_l_i _ (om : ℂ), toC_real, toC_complex] using this

theorem scalar_loops_zero :
    (∀ q, 0 < q → ∀ M', 0 < M' → Spec.loop Spec.scalar q om (0 : ℝ) (Real.sqrt M') (Real.sqrt M') beta =
      thermal.zero_momentum.i_m_m_i_same_mass q (om : ℂ) (Real.sqrt M') beta) ∧
    (∀ q, 0 < q → ∀ M', 0 < M' → Spec.loop Spec.scalar q om (0 : ℝ) (Real.sqrt M') 0 beta =
      thermal.zero_momentum.i_m_0_i q (om : ℂ) (Real.sqrt M') beta) ∧
    (∀ q, 0 < q → Spec.loop Spec.scalar q om (0 : ℝ) 0 0 beta = thermal.zero_momentum.i_0_0_i q (om : ℂ) beta) := by
  refine ⟨fun q hq M' _ => ?_, fun q hq M' _ => ?_, fun q hq => ?_⟩
  · have := C62_zero_momentum_i_m_m_i_same_mass (q := q) (om : ℂ) √M' beta
    simpa using this.symm
  · have := C62_zero_momentum_i_m_0_i (q := q) hq (om : ℂ) √M' beta
    simpa using this.symm
  · have := C62_zero_momentum_i_0_0_i (q := q) hq (om : ℂ) beta
    simpa using this.symm

theorem ghostSelfEnergyThermal_zero {q : ℝ} (hq : 0 < q) (ho : om ≠ 0) (hM : 0 < M) :
    Spec.ghostSelfEnergyThermal om (0 : ℝ) beta q M =
      -((om : ℂ) ^ 2 + M) ^ 2 / (4 * M) * thermal.zero_momentum.i_m_0_i q (om : ℂ) (Real.sqrt M) beta
      + ((om : ℂ) ^ 2) ^ 2 / (4 * M) * thermal.zero_momentum.i_0_0_i q (om : ℂ) beta
      + ((om : ℂ) ^ 2 - M) / (4 * M) * (((thermal.j_m_i q (Real.sqrt M) beta : ℝ) : ℂ) - ((thermal.j_0_i q beta : ℝ) : ℂ)) := by
  have e3 := (C62_tadpoles q (Real.sqrt M) beta).1
  have e4 := (C62_tadpoles_massless hq beta).1
  simp only [toC_real] at e3
  rw [ghostSelfEnergyThermal_eq hq ho hM, scalar_loops_zero.2.1 q hq M hM, scalar_loops_zero.2.2 q hq, e3, e4]
  simp

end

theorem ghost_zero_integral_insertion {om m beta : ℝ} (ho : om ≠ 0) (hm : 0 < m) (hb : 0 < beta) :
    IntegralOne (Spec.ghostSelfEnergyThermal om (0 : ℝ) beta) (m ^ 2)
      fun q => ghost.thermal.zero_momentum.self_energy_thermal_part_landau_i q (ofR om : T) m beta := by
  have hM : 0 < m ^ 2 := by positivity
  have hsm : Real.sqrt (m ^ 2) = m := Real.sqrt_sq hm.le
  obtain ⟨s, hs⟩ : ∃ s, s = (om : ℂ) ^ 2 := ⟨_, rfl⟩
  have k1 := (i90_zero ho hM hb).mulCoeff (laurent_deriv 0 (-s ^ 2 / 4) (-s / 2) (-1 / 4) hM)
  have k2 := (IsIntegralDerivative.indep (M := m ^ 2) (int_zm_i_0_0 ho hb)).mulCoeff (laurent_deriv 0 (s ^ 2 / 4) 0 0 hM)
  have k3 := ((i82_j hM hb).add (.indepNeg (int_j_0 hb))).mulCoeff (laurent_deriv 0 (s / 4) (-1 / 4) 0 hM)
  refine ⟨_, ((k1.add k2).add k3).congrOn hM ?_ (fun q hq => rfl), ?_⟩
  · intro q hq M' hM'
    have hM0 : (M' : ℂ) ≠ 0 := by exact_mod_cast hM'.ne'
    rw [ghostSelfEnergyThermal_zero hq ho hM', ← hs]
    generalize thermal.zero_momentum.i_m_0_i q (om : ℂ) (Real.sqrt M') beta = a1
    generalize thermal.zero_momentum.i_0_0_i q (om : ℂ) beta = a2
    field_simp
    ring
  · intro q hq
    have hm0 : (m : ℂ) ≠ 0 := by exact_mod_cast hm.ne'
    beta_reduce
    rw [ghostSelfEnergyThermal_zero hq ho hM, ← hs, toC_ghost_thermal_zero_momentum_self_energy_thermal_part_landau_i, toC_ofR]
    simp only [ghost.thermal.zero_momentum.self_energy_thermal_part_landau_i, toC_complex, ofR_complex, hsm]
    push_cast
    rw [show (om : ℂ) * om = s by rw [hs]; ring]
    generalize thermal.zero_momentum.i_m_0_i q (om : ℂ) m beta = a1
    generalize thermal.zero_momentum.i_0_0_i q (om : ℂ) beta = a2
    generalize thermal.zero_momentum.d_i_m_0_i q (om : ℂ) m beta = a3
    field_simp
    ring

/-- Any polarisations for which the loops and the tadpoles are the given ones. -/
theorem glue_zero_integral {pol : List Spec.Vec} {om m beta : ℝ} {V : ℝ → ℂ → ℝ → ℂ} (hV : ∀ q, Polarised pol om (0 : ℝ) q (V q))
    (ho : om ≠ 0) (hm : 0 < m) (hb : 0 < beta)
    (hImm : ∀ q, 0 < q → ∀ M', 0 < M' → Spec.loop (V q) q om (0 : ℝ) (Real.sqrt M') (Real.sqrt M') beta =
      thermal.zero_momentum.i_m_m_l_i_same_mass q (om : ℂ) (Real.sqrt M') beta)
    (hIm0 : ∀ q, 0 < q → ∀ M', 0 < M' → Spec.loop (V q) q om (0 : ℝ) (Real.sqrt M') 0 beta =
      thermal.zero_momentum.i_m_0_l_i q (om : ℂ) (Real.sqrt M') beta)
    (hI00 : ∀ q, 0 < q → Spec.loop (V q) q om (0 : ℝ) 0 0 beta = thermal.zero_momentum.i_0_0_l_i q (om : ℂ) beta)
    (hJ : ∀ q, 0 < q → ∀ M', 0 < M' → Spec.tadpole (V q) q (Real.sqrt M') beta = ((thermal.j_m_t_i q (Real.sqrt M') beta : ℝ) : ℂ))
    (hJ0 : ∀ q, 0 < q → Spec.tadpole (V q) q 0 beta = ((thermal.j_0_t_i q beta : ℝ) : ℂ)) :
    ∃ g t : ℝ → ℂ, IntegralOne (Spec.gluonLoopThermal pol om (0 : ℝ) beta) (m ^ 2) g ∧
      IntegralTwo (Spec.gluonTadpoleThermal pol om (0 : ℝ) beta) (m ^ 2) t ∧
      ∀ q, 0 < q → gluon.thermal.zero_momentum.polarization_glue_l_thermal_part_landau_i q (ofR om : T) m beta =
        g q + Spec.ghostLoopThermal pol om (0 : ℝ) beta q + t q := by
  have hM : 0 < m ^ 2 := by positivity
  have hsm : Real.sqrt (m ^ 2) = m := Real.sqrt_sq hm.le
  obtain ⟨g, t, hg, ht, h⟩ := glue_integral_insertions hV ho hM hb hImm hIm0 hI00 hJ hJ0 (i90_same_l ho hM hb) (i90_zero_l ho hM hb)
    (fun M' hM' => i82_j_t hM' hb) (i82_dj_t hM hb) scalar_loops_zero.1 scalar_loops_zero.2.1 (i90_same ho hM hb) (i90_zero ho hM hb)
    (int_zm_i_0_0_l ho hb) (int_j_0_t hb)
  refine ⟨g, t, hg, ht, fun q hq => ?_⟩
  rw [h q hq, toC_gluon_thermal_zero_momentum_polarization_glue_l_thermal_part_landau_i, toC_ofR]
  simp only [gluon.thermal.zero_momentum.polarization_glue_l_thermal_part_landau_i, toC_complex, ofR_complex, hsm]
  push_cast
  have hm0 : (m : ℂ) ≠ 0 := by exact_mod_cast hm.ne'
  clear h hg ht
  rw [show (om : ℂ) ^ 2 + (0 : ℂ) ^ 2 = (om : ℂ) * om by ring]
  generalize (om : ℂ) * om = s at *
  generalize thermal.zero_momentum.i_0_0_l_i q (om : ℂ) beta = a0
  generalize thermal.zero_momentum.i_m_m_l_i_same_mass q (om : ℂ) m beta = a1
  generalize thermal.zero_momentum.i_m_0_l_i q (om : ℂ) m beta = a2
  generalize thermal.zero_momentum.i_m_m_i_same_mass q (om : ℂ) m beta = a3
  generalize thermal.zero_momentum.i_m_0_i q (om : ℂ) m beta = a4
  generalize thermal.zero_momentum.d_i_m_m_l_i_same_mass q (om : ℂ) m beta = a5
  generalize thermal.zero_momentum.d_i_m_0_l_i q (om : ℂ) m beta = a6
  generalize thermal.zero_momentum.d_i_m_m_i_same_mass q (om : ℂ) m beta = a7
  generalize thermal.zero_momentum.d_i_m_0_i q (om : ℂ) m beta = a8
  field_simp
  ring

theorem glue_l_zero_integral {om m beta : ℝ} (ho : om ≠ 0) (hm : 0 < m) (hb : 0 < beta) :
    ∃ g t : ℝ → ℂ, IntegralOne (Spec.gluonLoopThermal (Spec.polL om (0 : ℝ)) om (0 : ℝ) beta) (m ^ 2) g ∧
      IntegralTwo (Spec.gluonTadpoleThermal (Spec.polL om (0 : ℝ)) om (0 : ℝ) beta) (m ^ 2) t ∧
      ∀ q, 0 < q → gluon.thermal.zero_momentum.polarization_glue_l_thermal_part_landau_i q (ofR om : T) m beta =
        g q + Spec.ghostLoopThermal (Spec.polL om (0 : ℝ)) om (0 : ℝ) beta q + t q := by
  have ho' : (om : ℂ) ≠ 0 := by exact_mod_cast ho
  have hs : (om : ℂ) ^ 2 + ((0 : ℝ) : ℂ) ^ 2 ≠ 0 := by simpa using ho
  refine glue_zero_integral (fun q => polL_polarised hs q) ho hm hb (fun q hq M' hM' => ?_) (fun q hq M' hM' => ?_) (fun q hq => ?_)
    (fun q hq M' hM' => ?_) (fun q hq => ?_)
  · have := C62_zero_momentum_i_m_m_l_i_same_mass (q := q) (om := (om : ℂ)) ho' √M' beta
    simpa using this.symm
  · have := C62_zero_momentum_i_m_0_l_i (q := q) (om := (om : ℂ)) hq ho' √M' beta
    simpa using this.symm
  · have := C62_zero_momentum_i_0_0_l_i (q := q) (om := (om : ℂ)) hq ho' beta
    simpa using this.symm
  · have e := C62_tadpoles q (Real.sqrt M') beta
    simp only [toC_real] at e
    rw [tadpole_longitudinal q hs, e.2.2]
    simp [ho']
  · have e := C62_tadpoles_massless hq beta
    rw [tadpole_longitudinal q hs, e.2.2]
    simp [ho']

theorem glue_t_zero_integral {om m beta : ℝ} (ho : om ≠ 0) (hm : 0 < m) (hb : 0 < beta) :
    ∃ g t : ℝ → ℂ, IntegralOne (Spec.gluonLoopThermal Spec.polT om (0 : ℝ) beta) (m ^ 2) g ∧
      IntegralTwo (Spec.gluonTadpoleThermal Spec.polT om (0 : ℝ) beta) (m ^ 2) t ∧
      ∀ q, 0 < q → gluon.thermal.zero_momentum.polarization_glue_t_thermal_part_landau_i q (ofR om : T) m beta =
        g q + Spec.ghostLoopThermal Spec.polT om (0 : ℝ) beta q + t q := by
  refine glue_zero_integral (fun q => polT_polarised om 0 q) ho hm hb (fun q hq M' hM' => ?_) (fun q hq M' hM' => ?_) (fun q hq => ?_)
    (fun q hq M' hM' => ?_) (fun q hq => ?_)
  · have := C62_zero_momentum_i_m_m_t_i_same_mass (q := q) (om : ℂ) √M' beta
    simpa [thermal.zero_momentum.i_m_m_t_i_same_mass, thermal.zero_momentum.i_m_0_t_i, thermal.zero_momentum.i_0_0_t_i] using this.symm
  · have := C62_zero_momentum_i_m_0_t_i (q := q) hq (om : ℂ) √M' beta
    simpa [thermal.zero_momentum.i_m_m_t_i_same_mass, thermal.zero_momentum.i_m_0_t_i, thermal.zero_momentum.i_0_0_t_i] using this.symm
  · have := C62_zero_momentum_i_0_0_t_i (q := q) hq (om : ℂ) beta
    simpa [thermal.zero_momentum.i_m_m_t_i_same_mass, thermal.zero_momentum.i_m_0_t_i, thermal.zero_momentum.i_0_0_t_i] using this.symm
  · have e := C62_tadpoles q (Real.sqrt M') beta
    simp only [toC_real] at e
    exact e.2.2.symm
  · exact (C62_tadpoles_massless hq beta).2.2.symm

/-! ### The integrated functions -/

/-- **C90**: at zero momentum, the thermal part of the ghost self-energy is the thermal part of the one-loop diagram with at most one
insertion. -/
theorem C90_ghost_self_energy (k : consts.Consts ℝ) {om m beta : ℝ} {l : ℤ} (ho : om = 2 * Real.pi * l / beta) (hl : l ≠ 0) (hm : 0 < m) (hb : 0 < beta) :
    ∃ D : ℝ → ℂ, Spec.IsThermalFamily (fun M => Spec.ghostSelfEnergy (Spec.external om 0) M) beta D ∧
      Spec.HasOneInsertion D (m ^ 2) (ghost.thermal.zero_momentum.self_energy_thermal_part_landau .exact k (ofR om : T) m beta) := by
  refine ⟨fun M => ∫ q in Ioi (0 : ℝ), Spec.ghostSelfEnergyThermal om (0 : ℝ) beta q M, fun M hM => ?_, ?_⟩
  · simpa using (C81_ghost_self_energy (p := 0) ho hl hb hM).2
  · have := (ghost_zero_integral_insertion (T := T) (freq ho hl hb).1 hm hb).insertion.2
    rwa [← compactify_cplx] at this

/-- **C90**: at zero momentum, the longitudinal thermal polarization is the sum of the thermal parts of the gluon loop (at most one
insertion), the ghost loop and the tadpole (at most two insertions). -/
theorem C90_polarization_glue_l (k : consts.Consts ℝ) {om m beta : ℝ} {l : ℤ} (ho : om = 2 * Real.pi * l / beta) (hl : l ≠ 0) (hm : 0 < m) (hb : 0 < beta) :
    ∃ (D E : ℝ → ℂ) (g h t : ℂ),
      Spec.IsThermalFamily (fun M Q => Spec.average (Spec.polL om 0) fun e => Spec.gluonLoop e (Spec.external om 0) M Q) beta D ∧
      Spec.IsThermalDiagram (fun Q => Spec.average (Spec.polL om 0) fun e => Spec.ghostLoop e (Spec.external om 0) Q) beta h ∧
      Spec.IsThermalFamily (fun M Q => Spec.average (Spec.polL om 0) fun e => Spec.gluonTadpole e M Q) beta E ∧
      Spec.HasOneInsertion D (m ^ 2) g ∧ Spec.HasTwoInsertions E (m ^ 2) t ∧
      gluon.thermal.zero_momentum.polarization_glue_l_thermal_part_landau .exact k (ofR om : T) m beta = g + h + t := by
  obtain ⟨g, t, hg, ht, e⟩ := glue_l_zero_integral (T := T) (freq ho hl hb).1 hm hb
  have h1 := hg.insertion
  have h2 := ht.insertion (by positivity)
  have h3 := (C81_polarization_l (p := 0) ho hl hb one_pos).2.1
  refine ⟨_, _, _, _, _, fun M hM => (by simpa using (C81_polarization_l (p := 0) ho hl hb hM).1.2), (by simpa using h3.2),
    fun M hM => (by simpa using (C81_polarization_l (p := 0) ho hl hb hM).2.2.2), by simpa using h1.2, by simpa using h2.2, ?_⟩
  refine (compactify_cplx fun q => gluon.thermal.zero_momentum.polarization_glue_l_thermal_part_landau_i q (ofR om : T) m beta).trans ?_
  rw [setIntegral_congr_fun measurableSet_Ioi fun q hq => e q hq]
  have a : IntegrableOn (fun q => g q + Spec.ghostLoopThermal (Spec.polL om (0 : ℝ)) om (0 : ℝ) beta q) (Ioi 0) := h1.1.add h3.1
  rw [integral_add a h2.1, integral_add h1.1 h3.1]
  simp

/-- **C90**: the same for the transverse polarization. -/
theorem C90_polarization_glue_t (k : consts.Consts ℝ) {om m beta : ℝ} {l : ℤ} (ho : om = 2 * Real.pi * l / beta) (hl : l ≠ 0) (hm : 0 < m) (hb : 0 < beta) :
    ∃ (D E : ℝ → ℂ) (g h t : ℂ),
      Spec.IsThermalFamily (fun M Q => Spec.average Spec.polT fun e => Spec.gluonLoop e (Spec.external om 0) M Q) beta D ∧
      Spec.IsThermalDiagram (fun Q => Spec.average Spec.polT fun e => Spec.ghostLoop e (Spec.external om 0) Q) beta h ∧
      Spec.IsThermalFamily (fun M Q => Spec.average Spec.polT fun e => Spec.gluonTadpole e M Q) beta E ∧
      Spec.HasOneInsertion D (m ^ 2) g ∧ Spec.HasTwoInsertions E (m ^ 2) t ∧
      gluon.thermal.zero_momentum.polarization_glue_t_thermal_part_landau .exact k (ofR om : T) m beta = g + h + t := by
  obtain ⟨g, t, hg, ht, e⟩ := glue_t_zero_integral (T := T) (freq ho hl hb).1 hm hb
  have h1 := hg.insertion
  have h2 := ht.insertion (by positivity)
  have h3 := (C81_polarization_t (p := 0) ho hl hb one_pos).2.1
  refine ⟨_, _, _, _, _, fun M hM => (by simpa using (C81_polarization_t (p := 0) ho hl hb hM).1.2), (by simpa using h3.2),
    fun M hM => (by simpa using (C81_polarization_t (p := 0) ho hl hb hM).2.2.2), by simpa using h1.2, by simpa using h2.2, ?_⟩
  refine (compactify_cplx fun q => gluon.thermal.zero_momentum.polarization_glue_t_thermal_part_landau_i q (ofR om : T) m beta).trans ?_
  rw [setIntegral_congr_fun measurableSet_Ioi fun q hq => e q hq]
  have a : IntegrableOn (fun q => g q + Spec.ghostLoopThermal Spec.polT om (0 : ℝ) beta q) (Ioi 0) := h1.1.add h3.1
  rw [integral_add a h2.1, integral_add h1.1 h3.1]
  simp

end Qcd
