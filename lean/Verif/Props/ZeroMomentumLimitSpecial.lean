import Verif.Props.ZeroMomentumLimit

/-! # C40 for equal and vanishing masses, and for the thermal parts of the self-energies -/

set_option linter.unusedSimpArgs false
set_option linter.unusedVariables false

namespace Qcd
open Filter Topology
open consts (Consts)

theorem toC_energy_zero {T : Type} [Num T] {q : ℝ} (hq : 0 ≤ q) : toC (energy q (0 : T)) = (q : ℂ) := by
  rw [toC_energy, toC_zero, energy_zero hq]

section
variable {T1 T2 : Type} [Num T1] [Num T2] {q : ℝ} {om : T1} {m : T2}

/-- **C40**: loops of equal masses. -/
theorem C40_same_mass (hq : 0 < q) (beta : ℝ)
    (h : Spec.RestRegular (toC om) (toC (energy q m)) (toC (energy q m)) 0) :
    Tendsto (fun p : ℝ => thermal.i_m_m_i_same_mass q om p m beta) (𝓝[≠] 0) (𝓝 (thermal.zero_momentum.i_m_m_i_same_mass q om m beta)) ∧
    Tendsto (fun p : ℝ => thermal.i_m_m_l_i_same_mass q om p m beta) (𝓝[≠] 0) (𝓝 (thermal.zero_momentum.i_m_m_l_i_same_mass q om m beta)) ∧
    Tendsto (fun p : ℝ => thermal.i_m_m_t_i_same_mass q om p m beta) (𝓝[≠] 0) (𝓝 (thermal.zero_momentum.i_m_m_t_i_same_mass q om m beta)) ∧
    Tendsto (fun p : ℝ => thermal.d_i_m_m_i_same_mass q om p m beta) (𝓝[≠] 0) (𝓝 (thermal.zero_momentum.d_i_m_m_i_same_mass q om m beta)) ∧
    Tendsto (fun p : ℝ => thermal.d_i_m_m_l_i_same_mass q om p m beta) (𝓝[≠] 0) (𝓝 (thermal.zero_momentum.d_i_m_m_l_i_same_mass q om m beta)) ∧
    Tendsto (fun p : ℝ => thermal.d_i_m_m_t_i_same_mass q om p m beta) (𝓝[≠] 0) (𝓝 (thermal.zero_momentum.d_i_m_m_t_i_same_mass q om m beta)) := by
  have h' : Spec.RestRegular (toC om) (toC (energy q m)) (toC (energy q m)) (toC (m * m) - toC (m * m)) := by rwa [sub_self]
  obtain ⟨a1, a2, a3, a4, a5, a6⟩ := C35_thermal_same_mass (T1 := T1) (T2 := T2)
  obtain ⟨b1, b2, b3, b4, b5, b6⟩ := C35_thermal_zero_momentum_same_mass (T1 := T1) (T2 := T2)
  refine ⟨?_, ?_, ?_, ?_, ?_, ?_⟩
  · simpa only [a1, b1] using C40_i_m_m_i hq beta h'
  · simpa only [a2, b2] using C40_i_m_m_l_i hq beta h'
  · simpa only [a3, b3] using C40_i_m_m_t_i hq beta h'
  · simpa only [a4, b4] using C40_d_i_m_m_i hq beta h'
  · simpa only [a5, b5] using C40_d_i_m_m_l_i hq beta h'
  · simpa only [a6, b6] using C40_d_i_m_m_t_i hq beta h'

/-- **C40**: loops of one massive and one massless propagator. -/
theorem C40_second_mass_zero (hq : 0 < q) (beta : ℝ)
    (h : Spec.RestRegular (toC om) (toC (energy q m)) (q : ℂ) (-toC (m * m))) :
    Tendsto (fun p : ℝ => thermal.i_m_0_i q om p m beta) (𝓝[≠] 0) (𝓝 (thermal.zero_momentum.i_m_0_i q om m beta)) ∧
    Tendsto (fun p : ℝ => thermal.i_m_0_l_i q om p m beta) (𝓝[≠] 0) (𝓝 (thermal.zero_momentum.i_m_0_l_i q om m beta)) ∧
    Tendsto (fun p : ℝ => thermal.i_m_0_t_i q om p m beta) (𝓝[≠] 0) (𝓝 (thermal.zero_momentum.i_m_0_t_i q om m beta)) ∧
    Tendsto (fun p : ℝ => thermal.d_i_m_0_i q om p m beta) (𝓝[≠] 0) (𝓝 (thermal.zero_momentum.d_i_m_0_i q om m beta)) ∧
    Tendsto (fun p : ℝ => thermal.d_i_m_0_l_i q om p m beta) (𝓝[≠] 0) (𝓝 (thermal.zero_momentum.d_i_m_0_l_i q om m beta)) ∧
    Tendsto (fun p : ℝ => thermal.d_i_m_0_t_i q om p m beta) (𝓝[≠] 0) (𝓝 (thermal.zero_momentum.d_i_m_0_t_i q om m beta)) := by
  have h' : Spec.RestRegular (toC om) (toC (energy q m)) (toC (energy q (0 : ℝ))) (toC ((0 : ℝ) * (0 : ℝ)) - toC (m * m)) := by
    rwa [toC_energy_zero hq.le, mul_zero, toC_zero, zero_sub]
  obtain ⟨a1, a2, a3, a4, a5, a6⟩ := C35_thermal_second_mass_zero (T1 := T1) (T2 := T2) (T3 := ℝ)
  obtain ⟨b1, b2, b3, b4, b5, b6⟩ := C35_thermal_zero_momentum_second_mass_zero (T1 := T1) (T2 := T2) (T3 := ℝ)
  refine ⟨?_, ?_, ?_, ?_, ?_, ?_⟩
  · simpa only [a1 _ _ _ _ _ hq, b1 _ _ _ _ hq] using C40_i_m_m_i hq beta h'
  · simpa only [a2 _ _ _ _ _ hq, b2 _ _ _ _ hq] using C40_i_m_m_l_i hq beta h'
  · simpa only [a3 _ _ _ _ _ hq, b3 _ _ _ _ hq] using C40_i_m_m_t_i hq beta h'
  · simpa only [a4 _ _ _ _ _ hq, b4 _ _ _ _ hq] using C40_d_i_m_m_i hq beta h'
  · simpa only [a5 _ _ _ _ _ hq, b5 _ _ _ _ hq] using C40_d_i_m_m_l_i hq beta h'
  · simpa only [a6 _ _ _ _ _ hq, b6 _ _ _ _ hq] using C40_d_i_m_m_t_i hq beta h'

/-- **C40**: massless loops. -/
theorem C40_zero_mass (hq : 0 < q) (beta : ℝ)
    (h : Spec.RestRegular (toC om) (q : ℂ) (q : ℂ) 0) :
    Tendsto (fun p : ℝ => thermal.i_0_0_i q om p beta) (𝓝[≠] 0) (𝓝 (thermal.zero_momentum.i_0_0_i q om beta)) ∧
    Tendsto (fun p : ℝ => thermal.i_0_0_l_i q om p beta) (𝓝[≠] 0) (𝓝 (thermal.zero_momentum.i_0_0_l_i q om beta)) ∧
    Tendsto (fun p : ℝ => thermal.i_0_0_t_i q om p beta) (𝓝[≠] 0) (𝓝 (thermal.zero_momentum.i_0_0_t_i q om beta)) ∧
    Tendsto (fun p : ℝ => thermal.d_i_0_0_i q om p beta) (𝓝[≠] 0) (𝓝 (thermal.zero_momentum.d_i_0_0_i q om beta)) ∧
    Tendsto (fun p : ℝ => thermal.d_i_0_0_l_i q om p beta) (𝓝[≠] 0) (𝓝 (thermal.zero_momentum.d_i_0_0_l_i q om beta)) ∧
    Tendsto (fun p : ℝ => thermal.d_i_0_0_t_i q om p beta) (𝓝[≠] 0) (𝓝 (thermal.zero_momentum.d_i_0_0_t_i q om beta)) := by
  have h' : Spec.RestRegular (toC om) (toC (energy q (0 : ℝ))) (q : ℂ) (-toC ((0 : ℝ) * (0 : ℝ))) := by
    rwa [toC_energy_zero hq.le, mul_zero, toC_zero, neg_zero]
  obtain ⟨a1, a2, a3, a4, a5, a6⟩ := C35_thermal_zero_mass (T1 := T1) (T2 := ℝ)
  obtain ⟨b1, b2, b3, b4, b5, b6⟩ := C35_thermal_zero_momentum_zero_mass (T1 := T1) (T2 := ℝ)
  obtain ⟨c1, c2, c3, c4, c5, c6⟩ := C40_second_mass_zero hq beta h'
  refine ⟨?_, ?_, ?_, ?_, ?_, ?_⟩
  · simpa only [a1 _ _ _ _ hq, b1 _ _ _ hq] using c1
  · simpa only [a2 _ _ _ _ hq, b2 _ _ _ hq] using c2
  · simpa only [a3 _ _ _ _ hq, b3 _ _ _ hq] using c3
  · simpa only [a4 _ _ _ _ hq, b4 _ _ _ hq] using c4
  · simpa only [a5 _ _ _ _ hq, b5 _ _ _ hq] using c5
  · simpa only [a6 _ _ _ _ hq, b6 _ _ _ hq] using c6

end

end Qcd
