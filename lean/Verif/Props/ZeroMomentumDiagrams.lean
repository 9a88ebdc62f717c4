import Verif.Props.IntegratedDiagramsZero
import Verif.Props.QcdDiagrams
import Verif.Spec.GluonSum

/-! # C90: the dressing functions at zero momentum are sums of one-loop diagrams

The external line is `(om, 0)`; longitudinal and transverse polarisations are kept apart, although at zero momentum the library computes the
two with the same code. -/

namespace Qcd
open Spec Matrix
open scoped Real

variable {g : Fin 4 → Matrix (Fin 4) (Fin 4) ℂ}

theorem vec_momentum_zero (om : ℝ) : vec (momentum om 0) = external om 0 := by rw [vec_momentum, Complex.ofReal_zero]

theorem norm_momentum_zero (om : ℝ) : ‖momentum om 0‖ ^ 2 = om ^ 2 := by rw [norm_momentum]; ring

theorem msq_external_zero (om : ℝ) : msq (external om 0) = (om : ℂ) ^ 2 := by
  rw [msq_external]; ring

theorem polL_real_zero {om : ℝ} (ho : om ≠ 0) : ∃ l : List Momentum, polL om 0 = l.map vec ∧ Polarisations (momentum om 0) l := by
  obtain ⟨h1, h2⟩ := polL_real ho 0
  rw [Complex.ofReal_zero] at h1
  exact ⟨_, h1, h2⟩

theorem polT_real_zero (om : ℝ) : ∃ l : List Momentum, polT = l.map vec ∧ Polarisations (momentum om 0) l := ⟨_, (polT_real om 0).1, (polT_real om 0).2⟩

/-- **C90**: the ghost at finite temperature and zero momentum, vacuum and thermal part together, against the ghost at any other point:
here the second point has a spatial momentum, so the two interfaces use the same renormalisation. -/
theorem C90_ghost_thermal (k : consts.Consts ℝ) {om1 om2 p2 m beta : ℝ} {l1 l2 : ℤ} (ho1 : om1 = 2 * Real.pi * l1 / beta) (hl1 : l1 ≠ 0)
    (ho2 : om2 = 2 * Real.pi * l2 / beta) (hl2 : l2 ≠ 0) (hp2 : p2 ≠ 0) (hm : 0 < m) (hb : 0 < beta) (g0 : ℝ) :
    ∃ (D E1 E2 : ℝ → ℂ) (x t1 t2 : ℂ),
      IsVacuumFamily (fun M Q => ghostSelfEnergy (external om1 0) M Q / msq (external om1 0) - ghostSelfEnergy (external om2 p2) M Q / msq (external om2 p2)) D ∧
      IsThermalFamily (fun M Q => ghostSelfEnergy (external om1 0) M Q) beta E1 ∧
      IsThermalFamily (fun M Q => ghostSelfEnergy (external om2 p2) M Q) beta E2 ∧
      HasOneInsertion D (m ^ 2) x ∧ HasOneInsertion E1 (m ^ 2) t1 ∧ HasOneInsertion E2 (m ^ 2) t2 ∧
      ym.thermal.zero_momentum.ghost.dressing_inv_landau .exact k om1 m beta g0 - ym.thermal.ghost.dressing_inv_landau .exact k om2 p2 m beta g0 =
        16 * π ^ 2 / 3 * (x + t1 / msq (external om1 0) - t2 / msq (external om2 p2)) := by
  obtain ⟨D, x, hD, hx, e⟩ := C85_ghost_vacuum (P1 := momentum om1 0) (P2 := momentum om2 p2) (momentum_ne (freq ho1 hl1 hb).1)
    (momentum_ne (freq ho2 hl2 hb).1) hm g0
  obtain ⟨E1, hE1, ht1⟩ := C90_ghost_self_energy (T := ℝ) k ho1 hl1 hm hb
  obtain ⟨E2, hE2, ht2⟩ := C83_ghost_self_energy (T := ℝ) k ho2 hl2 hp2 hm hb
  simp only [vec_momentum_zero, vec_momentum] at hD
  refine ⟨D, E1, E2, x, _, _, hD, hE1, hE2, hx, ht1, ht2, ?_⟩
  rw [norm_momentum_zero, norm_momentum] at e
  simp only [ym.thermal.zero_momentum.ghost.dressing_inv_landau, ym.thermal.ghost.dressing_inv_landau, msq_external, msq_external_zero, toC_real, ofR_real, PREFACTOR]
  have e' : ∀ om p : ℝ, (om * om + p * p) / (m * m) = (om ^ 2 + p ^ 2) / m ^ 2 := fun om p => by ring
  have e'' : ∀ om : ℝ, om * om / (m * m) = om ^ 2 / m ^ 2 := fun om => by ring
  rw [e', e'']
  push_cast at e ⊢
  linear_combination e

/-- **C90**: the gluon of pure Yang-Mills theory at finite temperature and zero momentum, longitudinal and transverse. The constant is the
one of the interface with a spatial momentum. -/
theorem C90_gluon_thermal (k : consts.Consts ℝ) {m : ℝ} (hm : 0 < m) (f0 : ℝ) :
    ∃ z : ℂ, ∀ (beta : ℝ) (n : ℤ) (om : ℝ), 0 < beta → n ≠ 0 → om = 2 * Real.pi * n / beta →
      IsThermalGluon (polL om 0) (external om 0) beta (m ^ 2) z (ym.thermal.zero_momentum.gluon.dressing_l_inv_landau .exact k om m beta f0) ∧
      IsThermalGluon polT (external om 0) beta (m ^ 2) z (ym.thermal.zero_momentum.gluon.dressing_t_inv_landau .exact k om m beta f0) ∧
      ∀ p : ℝ, p ≠ 0 →
        IsThermalGluon (polL om p) (external om p) beta (m ^ 2) z (ym.thermal.gluon.dressing_l_inv_landau .exact k om p m beta f0) ∧
        IsThermalGluon polT (external om p) beta (m ^ 2) z (ym.thermal.gluon.dressing_t_inv_landau .exact k om p m beta f0) := by
  obtain ⟨z, hz⟩ := C86_gluon_vacuum hm f0
  refine ⟨z, fun beta n om hb hn ho => ?_⟩
  have ho0 := (freq ho hn hb).1
  have hP : momentum om 0 ≠ 0 := momentum_ne ho0
  have e' : om * om / (m * m) = om ^ 2 / m ^ 2 := by ring
  have fin : ∀ {x t : ℂ}, ((ym.gluon.dressing_inv_landau (‖momentum om 0‖ ^ 2 / m ^ 2) f0 : ℝ) : ℂ) = z - 16 * π ^ 2 / 3 * (x / msq (vec (momentum om 0))) →
      ((ym.gluon.dressing_inv_landau (om * om / (m * m)) f0 : ℝ) : ℂ) - (((om * om)⁻¹ * PREFACTOR : ℝ) : ℂ) * t =
        z - 16 * π ^ 2 / 3 * ((x + t) / msq (external om 0)) := fun {x t} h => by
    rw [norm_momentum_zero, vec_momentum_zero, msq_external_zero] at h
    rw [e', h, msq_external_zero, PREFACTOR]
    push_cast
    ring
  refine ⟨?_, ?_, fun p hp => gluon_thermal_of k hm f0 hz hb hn ho hp⟩
  · obtain ⟨pl, h1, h2⟩ := polL_real_zero ho0
    obtain ⟨x, hx, ex⟩ := hz _ hP _ h2
    obtain ⟨D, E, g, h, t, c1, c2, c3, c4, c5, et⟩ := C90_polarization_glue_l (T := ℝ) k ho hn hm hb
    rw [← h1, vec_momentum_zero] at hx
    refine ⟨x, g + h + t, hx, ⟨D, E, g, h, t, c1, c2, c3, c4, c5, rfl⟩, ?_⟩
    rw [← fin ex, ← et]
    rfl
  · obtain ⟨pl, h1, h2⟩ := polT_real_zero om
    obtain ⟨x, hx, ex⟩ := hz _ hP _ h2
    obtain ⟨D, E, g, h, t, c1, c2, c3, c4, c5, et⟩ := C90_polarization_glue_t (T := ℝ) k ho hn hm hb
    rw [← h1, vec_momentum_zero] at hx
    refine ⟨x, g + h + t, hx, ⟨D, E, g, h, t, c1, c2, c3, c4, c5, rfl⟩, ?_⟩
    rw [← fin ex, ← et]
    rfl

/-- **C90** (quantum chromodynamics, any list of quarks): finite temperature and density, and zero temperature and finite density, at zero
momentum, longitudinal and transverse; one constant, the one of the interfaces with a spatial momentum. The number of colours of the
configuration must be the global one: see C31. -/
theorem C90_qcd_gluon_config (hg : IsClifford g) (k : consts.Consts ℝ) (hnc : k.nc ≠ 0) {m : ℝ} (hm : 0 < m) (qs : List (ℕ × ℝ))
    (hq : ∀ q ∈ qs, 0 < q.2) (f0 : ℝ) :
    ∃ z : ℂ,
      (∀ (beta mu : ℝ) (n : ℤ) (om : ℝ), 0 < beta → n ≠ 0 → om = 2 * Real.pi * n / beta →
        IsThermalQcdGluon g k.nc (polL om 0) (external om 0) beta mu (m ^ 2) qs z
          (qcd.thermal.zero_momentum.gluon.dressing_l_inv_landau_w_field_config .exact k om beta mu f0 (FieldConfig.new k.nc m qs)) ∧
        IsThermalQcdGluon g k.nc polT (external om 0) beta mu (m ^ 2) qs z
          (qcd.thermal.zero_momentum.gluon.dressing_t_inv_landau_w_field_config .exact k om beta mu f0 (FieldConfig.new k.nc m qs)) ∧
        ∀ p : ℝ, p ≠ 0 →
          IsThermalQcdGluon g k.nc (polL om p) (external om p) beta mu (m ^ 2) qs z
            (qcd.thermal.gluon.dressing_l_inv_landau_w_field_config .exact k om p beta mu f0 (FieldConfig.new k.nc m qs)) ∧
          IsThermalQcdGluon g k.nc polT (external om p) beta mu (m ^ 2) qs z
            (qcd.thermal.gluon.dressing_t_inv_landau_w_field_config .exact k om p beta mu f0 (FieldConfig.new k.nc m qs))) ∧
      ∀ mu om : ℝ, om ≠ 0 →
        IsDenseQcdGluon g k.nc (polL om 0) (external om 0) mu (m ^ 2) qs z
          (qcd.thermal.zero_momentum.gluon.dressing_l_inv_zero_temp_landau_w_field_config .exact k om mu f0 (FieldConfig.new k.nc m qs)) ∧
        IsDenseQcdGluon g k.nc polT (external om 0) mu (m ^ 2) qs z
          (qcd.thermal.zero_momentum.gluon.dressing_t_inv_zero_temp_landau_w_field_config .exact k om mu f0 (FieldConfig.new k.nc m qs)) ∧
        ∀ p : ℝ, p ≠ 0 →
          IsDenseQcdGluon g k.nc (polL om p) (external om p) mu (m ^ 2) qs z
            (qcd.thermal.gluon.dressing_l_inv_zero_temp_landau_w_field_config .exact k om p mu f0 (FieldConfig.new k.nc m qs)) ∧
          IsDenseQcdGluon g k.nc polT (external om p) mu (m ^ 2) qs z
            (qcd.thermal.gluon.dressing_t_inv_zero_temp_landau_w_field_config .exact k om p mu f0 (FieldConfig.new k.nc m qs)) := by
  obtain ⟨⟨z, hz⟩, -⟩ := C88_vacuum_config hg k hnc hm qs hq f0
  refine ⟨z, fun beta mu n om hb hn ho => ?_, fun mu om ho0 => ?_⟩
  · have ho0 := (freq ho hn hb).1
    have hP : momentum om 0 ≠ 0 := momentum_ne ho0
    have e' : om * om / (m * m) = om ^ 2 / m ^ 2 := by ring
    refine ⟨?_, ?_, fun p hp => thermal_config_of hg k hm hq hz mu hb hn ho hp⟩
    · obtain ⟨pl, h1, h2⟩ := polL_real_zero ho0
      obtain ⟨x, ys, hx, hy, ex⟩ := hz _ hP _ h2
      obtain ⟨D, E, g', h, t, c1, c2, c3, c4, c5, et⟩ := C90_polarization_glue_l (T := ℝ) k ho hn hm hb
      obtain ⟨us, hu, eu⟩ := thermal_list (fun mq => C84_zero_momentum_quark_l (T := ℝ) hg k ho hn hb mq mu) k.nc m qs
      rw [← h1, vec_momentum_zero] at hx hy
      rw [norm_momentum_zero, vec_momentum_zero] at ex
      refine ⟨x, g' + h + t, ys, us, hx, ⟨D, E, g', h, t, c1, c2, c3, c4, c5, rfl⟩, hy, hu, ?_⟩
      have e3 : qcd.thermal.zero_momentum.gluon.dressing_l_inv_landau_w_field_config .exact k om beta mu f0 (FieldConfig.new k.nc m qs) =
          ((qcd.gluon.dressing_inv_landau_w_field_config k (om ^ 2 / m ^ 2 : ℝ) f0 (FieldConfig.new k.nc m qs) : ℝ) : ℂ)
            - ((om : ℂ) * om)⁻¹ * PREFACTOR * (gluon.thermal.zero_momentum.polarization_glue_l_thermal_part_landau .exact k om m beta
              + ((FieldConfig.new k.nc m qs).quarks_internal.map fun qi =>
                  gluon.thermal.zero_momentum.polarization_quark_l_thermal_part_landau .exact k om qi.mq beta mu * (ofR (qi.nf : ℝ) : ℂ)).sum) := by
        rw [← e']
        simp only [qcd.thermal.zero_momentum.gluon.dressing_l_inv_landau_w_field_config, toC_real, ofR_real]
        push_cast
        rfl
      simp only [ofR_real] at et eu
      rw [e3, ex, et, eu, msq_external_zero, PREFACTOR]
      push_cast
      ring
    · obtain ⟨pl, h1, h2⟩ := polT_real_zero om
      obtain ⟨x, ys, hx, hy, ex⟩ := hz _ hP _ h2
      obtain ⟨D, E, g', h, t, c1, c2, c3, c4, c5, et⟩ := C90_polarization_glue_t (T := ℝ) k ho hn hm hb
      obtain ⟨us, hu, eu⟩ := thermal_list (fun mq => C84_zero_momentum_quark_t (T := ℝ) hg k ho hn hb mq mu) k.nc m qs
      rw [← h1, vec_momentum_zero] at hx hy
      rw [norm_momentum_zero, vec_momentum_zero] at ex
      refine ⟨x, g' + h + t, ys, us, hx, ⟨D, E, g', h, t, c1, c2, c3, c4, c5, rfl⟩, hy, hu, ?_⟩
      have e3 : qcd.thermal.zero_momentum.gluon.dressing_t_inv_landau_w_field_config .exact k om beta mu f0 (FieldConfig.new k.nc m qs) =
          ((qcd.gluon.dressing_inv_landau_w_field_config k (om ^ 2 / m ^ 2 : ℝ) f0 (FieldConfig.new k.nc m qs) : ℝ) : ℂ)
            - ((om : ℂ) * om)⁻¹ * PREFACTOR * (gluon.thermal.zero_momentum.polarization_glue_t_thermal_part_landau .exact k om m beta
              + ((FieldConfig.new k.nc m qs).quarks_internal.map fun qi =>
                  gluon.thermal.zero_momentum.polarization_quark_t_thermal_part_landau .exact k om qi.mq beta mu * (ofR (qi.nf : ℝ) : ℂ)).sum) := by
        rw [← e']
        simp only [qcd.thermal.zero_momentum.gluon.dressing_t_inv_landau_w_field_config, toC_real, ofR_real]
        push_cast
        rfl
      simp only [ofR_real] at et eu
      rw [e3, ex, et, eu, msq_external_zero, PREFACTOR]
      push_cast
      ring
  · have hP : momentum om 0 ≠ 0 := momentum_ne ho0
    have e' : om * om / (m * m) = om ^ 2 / m ^ 2 := by ring
    refine ⟨?_, ?_, fun p hp => zero_temp_config_of hg k hm hq hz mu ho0 hp⟩
    · obtain ⟨pl, h1, h2⟩ := polL_real_zero ho0
      obtain ⟨x, ys, hx, hy, ex⟩ := hz _ hP _ h2
      obtain ⟨us, hu, eu⟩ := thermal_list (fun mq => C84_zero_momentum_quark_l_zero_temp (T := ℝ) hg k ho0 mq mu) k.nc m qs
      rw [← h1, vec_momentum_zero] at hx hy
      rw [norm_momentum_zero, vec_momentum_zero] at ex
      refine ⟨x, ys, us, hx, hy, hu, ?_⟩
      have e3 : qcd.thermal.zero_momentum.gluon.dressing_l_inv_zero_temp_landau_w_field_config .exact k om mu f0 (FieldConfig.new k.nc m qs) =
          ((qcd.gluon.dressing_inv_landau_w_field_config k (om ^ 2 / m ^ 2 : ℝ) f0 (FieldConfig.new k.nc m qs) : ℝ) : ℂ)
            - ((om : ℂ) * om)⁻¹ * PREFACTOR * ((FieldConfig.new k.nc m qs).quarks_internal.map fun qi =>
                  gluon.thermal.zero_momentum.polarization_quark_l_thermal_part_zero_temp_landau .exact k om qi.mq mu * (ofR (qi.nf : ℝ) : ℂ)).sum := by
        rw [← e']
        simp only [qcd.thermal.zero_momentum.gluon.dressing_l_inv_zero_temp_landau_w_field_config, toC_real, ofR_real]
        push_cast
        rfl
      simp only [ofR_real] at eu
      rw [e3, ex, eu, msq_external_zero, PREFACTOR]
      push_cast
      ring
    · obtain ⟨pl, h1, h2⟩ := polT_real_zero om
      obtain ⟨x, ys, hx, hy, ex⟩ := hz _ hP _ h2
      obtain ⟨us, hu, eu⟩ := thermal_list (fun mq => C84_zero_momentum_quark_t_zero_temp (T := ℝ) hg k ho0 mq mu) k.nc m qs
      rw [← h1, vec_momentum_zero] at hx hy
      rw [norm_momentum_zero, vec_momentum_zero] at ex
      refine ⟨x, ys, us, hx, hy, hu, ?_⟩
      have e3 : qcd.thermal.zero_momentum.gluon.dressing_t_inv_zero_temp_landau_w_field_config .exact k om mu f0 (FieldConfig.new k.nc m qs) =
          ((qcd.gluon.dressing_inv_landau_w_field_config k (om ^ 2 / m ^ 2 : ℝ) f0 (FieldConfig.new k.nc m qs) : ℝ) : ℂ)
            - ((om : ℂ) * om)⁻¹ * PREFACTOR * ((FieldConfig.new k.nc m qs).quarks_internal.map fun qi =>
                  gluon.thermal.zero_momentum.polarization_quark_t_thermal_part_zero_temp_landau .exact k om qi.mq mu * (ofR (qi.nf : ℝ) : ℂ)).sum := by
        rw [← e']
        simp only [qcd.thermal.zero_momentum.gluon.dressing_t_inv_zero_temp_landau_w_field_config, toC_real, ofR_real]
        push_cast
        rfl
      simp only [ofR_real] at eu
      rw [e3, ex, eu, msq_external_zero, PREFACTOR]
      push_cast
      ring

/-- The four functions without a configuration are the ones with the global flavours. -/
theorem single_thermal_zero {k : consts.Consts ℝ} (hk : k.nf_div_nc = (k.nf : ℝ) / (k.nc : ℝ)) (om m mq beta mu f0 : ℝ) :
    qcd.thermal.zero_momentum.gluon.dressing_l_inv_landau .exact k om m mq beta mu f0 =
      qcd.thermal.zero_momentum.gluon.dressing_l_inv_landau_w_field_config .exact k om beta mu f0 (FieldConfig.new k.nc m [(k.nf, mq)]) ∧
    qcd.thermal.zero_momentum.gluon.dressing_t_inv_landau .exact k om m mq beta mu f0 =
      qcd.thermal.zero_momentum.gluon.dressing_t_inv_landau_w_field_config .exact k om beta mu f0 (FieldConfig.new k.nc m [(k.nf, mq)]) ∧
    qcd.thermal.zero_momentum.gluon.dressing_l_inv_zero_temp_landau .exact k om m mq mu f0 =
      qcd.thermal.zero_momentum.gluon.dressing_l_inv_zero_temp_landau_w_field_config .exact k om mu f0 (FieldConfig.new k.nc m [(k.nf, mq)]) ∧
    qcd.thermal.zero_momentum.gluon.dressing_t_inv_zero_temp_landau .exact k om m mq mu f0 =
      qcd.thermal.zero_momentum.gluon.dressing_t_inv_zero_temp_landau_w_field_config .exact k om mu f0 (FieldConfig.new k.nc m [(k.nf, mq)]) := by
  have e : (FieldConfig.new k.nc m [(k.nf, mq)]).gluon = m := rfl
  refine ⟨?_, ?_, ?_, ?_⟩
  · simp only [qcd.thermal.zero_momentum.gluon.dressing_l_inv_landau, qcd.thermal.zero_momentum.gluon.dressing_l_inv_landau_w_field_config, toC_real, ofR_real, ofR_complex]
    rw [e, ← (single_flavour hk _ _ _ _).1]
    simp [FieldConfig.new, QuarkInternal.new]
    left; ring
  · simp only [qcd.thermal.zero_momentum.gluon.dressing_t_inv_landau, qcd.thermal.zero_momentum.gluon.dressing_t_inv_landau_w_field_config, toC_real, ofR_real, ofR_complex]
    rw [e, ← (single_flavour hk _ _ _ _).1]
    simp [FieldConfig.new, QuarkInternal.new]
    left; ring
  · simp only [qcd.thermal.zero_momentum.gluon.dressing_l_inv_zero_temp_landau, qcd.thermal.zero_momentum.gluon.dressing_l_inv_zero_temp_landau_w_field_config, toC_real, ofR_real, ofR_complex]
    rw [e, ← (single_flavour hk _ _ _ _).1]
    simp [FieldConfig.new, QuarkInternal.new]
    ring
  · simp only [qcd.thermal.zero_momentum.gluon.dressing_t_inv_zero_temp_landau, qcd.thermal.zero_momentum.gluon.dressing_t_inv_zero_temp_landau_w_field_config, toC_real, ofR_real, ofR_complex]
    rw [e, ← (single_flavour hk _ _ _ _).1]
    simp [FieldConfig.new, QuarkInternal.new]
    ring

/-- **C90** (quantum chromodynamics, global flavours), after any sequence of calls that set the global parameters. -/
theorem C90_qcd_gluon (hg : IsClifford g) (hist : List (consts.Setter ℝ)) (hnc : (consts.after hist).nc ≠ 0) {m mq : ℝ} (hm : 0 < m) (hq : 0 < mq) (f0 : ℝ) :
    ∃ z : ℂ,
      (∀ (beta mu : ℝ) (n : ℤ) (om : ℝ), 0 < beta → n ≠ 0 → om = 2 * Real.pi * n / beta →
        IsThermalQcdGluon g (consts.after hist).nc (polL om 0) (external om 0) beta mu (m ^ 2) [((consts.after hist).nf, mq)] z
          (qcd.thermal.zero_momentum.gluon.dressing_l_inv_landau .exact (consts.after hist) om m mq beta mu f0) ∧
        IsThermalQcdGluon g (consts.after hist).nc polT (external om 0) beta mu (m ^ 2) [((consts.after hist).nf, mq)] z
          (qcd.thermal.zero_momentum.gluon.dressing_t_inv_landau .exact (consts.after hist) om m mq beta mu f0) ∧
        ∀ p : ℝ, p ≠ 0 →
          IsThermalQcdGluon g (consts.after hist).nc (polL om p) (external om p) beta mu (m ^ 2) [((consts.after hist).nf, mq)] z
            (qcd.thermal.gluon.dressing_l_inv_landau .exact (consts.after hist) om p m mq beta mu f0) ∧
          IsThermalQcdGluon g (consts.after hist).nc polT (external om p) beta mu (m ^ 2) [((consts.after hist).nf, mq)] z
            (qcd.thermal.gluon.dressing_t_inv_landau .exact (consts.after hist) om p m mq beta mu f0)) ∧
      ∀ mu om : ℝ, om ≠ 0 →
        IsDenseQcdGluon g (consts.after hist).nc (polL om 0) (external om 0) mu (m ^ 2) [((consts.after hist).nf, mq)] z
          (qcd.thermal.zero_momentum.gluon.dressing_l_inv_zero_temp_landau .exact (consts.after hist) om m mq mu f0) ∧
        IsDenseQcdGluon g (consts.after hist).nc polT (external om 0) mu (m ^ 2) [((consts.after hist).nf, mq)] z
          (qcd.thermal.zero_momentum.gluon.dressing_t_inv_zero_temp_landau .exact (consts.after hist) om m mq mu f0) ∧
        ∀ p : ℝ, p ≠ 0 →
          IsDenseQcdGluon g (consts.after hist).nc (polL om p) (external om p) mu (m ^ 2) [((consts.after hist).nf, mq)] z
            (qcd.thermal.gluon.dressing_l_inv_zero_temp_landau .exact (consts.after hist) om p m mq mu f0) ∧
          IsDenseQcdGluon g (consts.after hist).nc polT (external om p) mu (m ^ 2) [((consts.after hist).nf, mq)] z
            (qcd.thermal.gluon.dressing_t_inv_zero_temp_landau .exact (consts.after hist) om p m mq mu f0) := by
  have hk : (consts.after hist).nf_div_nc = ((consts.after hist).nf : ℝ) / ((consts.after hist).nc : ℝ) := consts.C02_ratio_current hist
  generalize consts.after hist = k at *
  obtain ⟨z, h1, h2⟩ := C90_qcd_gluon_config hg k hnc hm [(k.nf, mq)] (by simpa using hq) f0
  refine ⟨z, fun beta mu n om hb hn ho => ?_, fun mu om ho0 => ?_⟩
  · have ho0 := (freq ho hn hb).1
    have hs := single_thermal_zero hk om m mq beta mu f0
    have hp := fun p => single_thermal hk (p := p) ho0 hm hq beta mu f0
    rw [hs.1, hs.2.1]
    simp only [(hp _).1, (hp _).2.1]
    exact h1 beta mu n om hb hn ho
  · have hs := single_thermal_zero hk om m mq 0 mu f0
    have hp := fun p => single_thermal hk (p := p) ho0 hm hq 0 mu f0
    rw [hs.2.2.1, hs.2.2.2]
    simp only [(hp _).2.2.1, (hp _).2.2.2]
    exact h2 mu om ho0

/-! ### Concrete cases -/

/-- Three colours and no call at all; two light flavours and a heavy one; the first Matsubara frequency at unit temperature. -/
example : IsClifford dirac ∧ (consts.after ([] : List (consts.Setter ℝ))).nc ≠ 0 ∧
    (∀ q ∈ ([(2, 7 / 20), (1, 1 / 2)] : List (ℕ × ℝ)), 0 < q.2) ∧ (2 * Real.pi : ℝ) = 2 * Real.pi * (1 : ℤ) / 1 ∧ (2 * Real.pi : ℝ) ≠ 0 :=
  ⟨dirac_clifford, by decide, by simp, by push_cast; ring, by positivity⟩

example (k : consts.Consts ℝ) : ∃ z : ℂ,
    IsThermalGluon (polL (2 * Real.pi : ℝ) 0) (external (2 * Real.pi : ℝ) 0) 1 (1 ^ 2) z (ym.thermal.zero_momentum.gluon.dressing_l_inv_landau .exact k (2 * Real.pi) 1 1 0) := by
  obtain ⟨z, h⟩ := C90_gluon_thermal k (m := 1) one_pos 0
  exact ⟨z, (h 1 1 (2 * Real.pi) one_pos one_ne_zero (by push_cast; ring)).1⟩

end Qcd
