import Verif.Lemmas.ThermalParity

/-! # C36, C37, C38: parity, reality and definedness of the thermal integrands

`InStrip om E` (Spec/Thermal.lean): `om` is off the imaginary axis and `|Im om| < E`; it holds for
all real `om ≠ 0`. -/

namespace Qcd
open thermal consts

variable {T T1 T2 T3 T4 : Type} [Num T] [Num T1] [Num T2] [Num T3] [Num T4]

/-- A real nonzero frequency is in every strip: the hypotheses of the momentum-parity theorems
hold for all real `om ≠ 0`, `q > 0`. -/
theorem C36_strip_of_real {om q : ℝ} (hom : om ≠ 0) (hq : 0 < q) (m : ℝ) :
    InStrip (om : ℂ) (energy q m) ∧ InStrip (om : ℂ) q :=
  ⟨InStrip.ofReal hom (energy_pos hq), InStrip.ofReal hom hq⟩

/-- `thermal`: every integrand is even in the frequency, for all (real or complex) arguments. -/
theorem C36_frequency_thermal :
    (∀ (q : ℝ) (om : T1) (p : ℝ) (m1 : T2) (m2 : T3) (beta : ℝ),
      thermal.i_m_m_i q (-om) p m1 m2 beta = thermal.i_m_m_i q om p m1 m2 beta) ∧
    (∀ (q : ℝ) (om : T1) (p : T2) (m : T3) (beta : ℝ),
      thermal.i_m_m_i_same_mass q (-om) p m beta = thermal.i_m_m_i_same_mass q om p m beta) ∧
    (∀ (q : ℝ) (om : T1) (p : T2) (m : T3) (beta : ℝ),
      thermal.i_m_0_i q (-om) p m beta = thermal.i_m_0_i q om p m beta) ∧
    (∀ (q : ℝ) (om : T) (p : ℝ) (beta : ℝ),
      thermal.i_0_0_i q (-om) p beta = thermal.i_0_0_i q om p beta) ∧
    (∀ (q : ℝ) (om : T1) (p : ℝ) (m1 : T2) (m2 : T3) (beta : ℝ),
      thermal.i_m_m_l_i q (-om) p m1 m2 beta = thermal.i_m_m_l_i q om p m1 m2 beta) ∧
    (∀ (q : ℝ) (om : T1) (p : T2) (m : T3) (beta : ℝ),
      thermal.i_m_m_l_i_same_mass q (-om) p m beta = thermal.i_m_m_l_i_same_mass q om p m beta) ∧
    (∀ (q : ℝ) (om : T1) (p : T2) (m : T3) (beta : ℝ),
      thermal.i_m_0_l_i q (-om) p m beta = thermal.i_m_0_l_i q om p m beta) ∧
    (∀ (q : ℝ) (om : T1) (p : T2) (beta : ℝ),
      thermal.i_0_0_l_i q (-om) p beta = thermal.i_0_0_l_i q om p beta) ∧
    (∀ (q : ℝ) (om : T1) (p : ℝ) (m1 : T2) (m2 : T3) (beta : ℝ),
      thermal.i_m_m_t_i q (-om) p m1 m2 beta = thermal.i_m_m_t_i q om p m1 m2 beta) ∧
    (∀ (q : ℝ) (om : T1) (p : ℝ) (m : T2) (beta : ℝ),
      thermal.i_m_m_t_i_same_mass q (-om) p m beta = thermal.i_m_m_t_i_same_mass q om p m beta) ∧
    (∀ (q : ℝ) (om : T1) (p : ℝ) (m : T2) (beta : ℝ),
      thermal.i_m_0_t_i q (-om) p m beta = thermal.i_m_0_t_i q om p m beta) ∧
    (∀ (q : ℝ) (om : T) (p : ℝ) (beta : ℝ),
      thermal.i_0_0_t_i q (-om) p beta = thermal.i_0_0_t_i q om p beta) ∧
    (∀ (q : ℝ) (om : T1) (p : ℝ) (m1 : T2) (m2 : T3) (beta : ℝ),
      thermal.d_i_m_m_i q (-om) p m1 m2 beta = thermal.d_i_m_m_i q om p m1 m2 beta) ∧
    (∀ (q : ℝ) (om : T1) (p : T2) (m : T3) (beta : ℝ),
      thermal.d_i_m_m_i_same_mass q (-om) p m beta = thermal.d_i_m_m_i_same_mass q om p m beta) ∧
    (∀ (q : ℝ) (om : T1) (p : T2) (m : T3) (beta : ℝ),
      thermal.d_i_m_0_i q (-om) p m beta = thermal.d_i_m_0_i q om p m beta) ∧
    (∀ (q : ℝ) (om : T) (p : ℝ) (beta : ℝ),
      thermal.d_i_0_0_i q (-om) p beta = thermal.d_i_0_0_i q om p beta) ∧
    (∀ (q : ℝ) (om : T1) (p : ℝ) (m1 : T2) (m2 : T3) (beta : ℝ),
      thermal.d_i_m_m_l_i q (-om) p m1 m2 beta = thermal.d_i_m_m_l_i q om p m1 m2 beta) ∧
    (∀ (q : ℝ) (om : T1) (p : T2) (m : T3) (beta : ℝ),
      thermal.d_i_m_m_l_i_same_mass q (-om) p m beta = thermal.d_i_m_m_l_i_same_mass q om p m beta) ∧
    (∀ (q : ℝ) (om : T1) (p : T2) (m : T3) (beta : ℝ),
      thermal.d_i_m_0_l_i q (-om) p m beta = thermal.d_i_m_0_l_i q om p m beta) ∧
    (∀ (q : ℝ) (om : T) (p : ℝ) (beta : ℝ),
      thermal.d_i_0_0_l_i q (-om) p beta = thermal.d_i_0_0_l_i q om p beta) ∧
    (∀ (q : ℝ) (om : T1) (p : ℝ) (m1 : T2) (m2 : T3) (beta : ℝ),
      thermal.d_i_m_m_t_i q (-om) p m1 m2 beta = thermal.d_i_m_m_t_i q om p m1 m2 beta) ∧
    (∀ (q : ℝ) (om : T1) (p : ℝ) (m : T2) (beta : ℝ),
      thermal.d_i_m_m_t_i_same_mass q (-om) p m beta = thermal.d_i_m_m_t_i_same_mass q om p m beta) ∧
    (∀ (q : ℝ) (om : T1) (p : ℝ) (m : T2) (beta : ℝ),
      thermal.d_i_m_0_t_i q (-om) p m beta = thermal.d_i_m_0_t_i q om p m beta) ∧
    (∀ (q : ℝ) (om : T) (p : ℝ) (beta : ℝ),
      thermal.d_i_0_0_t_i q (-om) p beta = thermal.d_i_0_0_t_i q om p beta) :=
  ⟨even_om_thermal_i_m_m_i,
   even_om_thermal_i_m_m_i_same_mass,
   even_om_thermal_i_m_0_i,
   even_om_thermal_i_0_0_i,
   even_om_thermal_i_m_m_l_i,
   even_om_thermal_i_m_m_l_i_same_mass,
   even_om_thermal_i_m_0_l_i,
   even_om_thermal_i_0_0_l_i,
   even_om_thermal_i_m_m_t_i,
   even_om_thermal_i_m_m_t_i_same_mass,
   even_om_thermal_i_m_0_t_i,
   even_om_thermal_i_0_0_t_i,
   even_om_thermal_d_i_m_m_i,
   even_om_thermal_d_i_m_m_i_same_mass,
   even_om_thermal_d_i_m_0_i,
   even_om_thermal_d_i_0_0_i,
   even_om_thermal_d_i_m_m_l_i,
   even_om_thermal_d_i_m_m_l_i_same_mass,
   even_om_thermal_d_i_m_0_l_i,
   even_om_thermal_d_i_0_0_l_i,
   even_om_thermal_d_i_m_m_t_i,
   even_om_thermal_d_i_m_m_t_i_same_mass,
   even_om_thermal_d_i_m_0_t_i,
   even_om_thermal_d_i_0_0_t_i⟩

/-- `thermal.zero_momentum`: every integrand is even in the frequency, for all (real or complex) arguments. -/
theorem C36_frequency_thermal_zero_momentum :
    (∀ (q : ℝ) (om : T1) (m1 : T2) (m2 : T3) (beta : ℝ),
      thermal.zero_momentum.i_m_m_i q (-om) m1 m2 beta = thermal.zero_momentum.i_m_m_i q om m1 m2 beta) ∧
    (∀ (q : ℝ) (om : T1) (m : T2) (beta : ℝ),
      thermal.zero_momentum.i_m_m_i_same_mass q (-om) m beta = thermal.zero_momentum.i_m_m_i_same_mass q om m beta) ∧
    (∀ (q : ℝ) (om : T1) (m : T2) (beta : ℝ),
      thermal.zero_momentum.i_m_0_i q (-om) m beta = thermal.zero_momentum.i_m_0_i q om m beta) ∧
    (∀ (q : ℝ) (om : T) (beta : ℝ),
      thermal.zero_momentum.i_0_0_i q (-om) beta = thermal.zero_momentum.i_0_0_i q om beta) ∧
    (∀ (q : ℝ) (om : T1) (m1 : T2) (m2 : T3) (beta : ℝ),
      thermal.zero_momentum.i_m_m_l_i q (-om) m1 m2 beta = thermal.zero_momentum.i_m_m_l_i q om m1 m2 beta) ∧
    (∀ (q : ℝ) (om : T1) (m : T2) (beta : ℝ),
      thermal.zero_momentum.i_m_m_l_i_same_mass q (-om) m beta = thermal.zero_momentum.i_m_m_l_i_same_mass q om m beta) ∧
    (∀ (q : ℝ) (om : T1) (m : T2) (beta : ℝ),
      thermal.zero_momentum.i_m_0_l_i q (-om) m beta = thermal.zero_momentum.i_m_0_l_i q om m beta) ∧
    (∀ (q : ℝ) (om : T) (beta : ℝ),
      thermal.zero_momentum.i_0_0_l_i q (-om) beta = thermal.zero_momentum.i_0_0_l_i q om beta) ∧
    (∀ (q : ℝ) (om : T1) (m1 : T2) (m2 : T3) (beta : ℝ),
      thermal.zero_momentum.i_m_m_t_i q (-om) m1 m2 beta = thermal.zero_momentum.i_m_m_t_i q om m1 m2 beta) ∧
    (∀ (q : ℝ) (om : T1) (m : T2) (beta : ℝ),
      thermal.zero_momentum.i_m_m_t_i_same_mass q (-om) m beta = thermal.zero_momentum.i_m_m_t_i_same_mass q om m beta) ∧
    (∀ (q : ℝ) (om : T1) (m : T2) (beta : ℝ),
      thermal.zero_momentum.i_m_0_t_i q (-om) m beta = thermal.zero_momentum.i_m_0_t_i q om m beta) ∧
    (∀ (q : ℝ) (om : T) (beta : ℝ),
      thermal.zero_momentum.i_0_0_t_i q (-om) beta = thermal.zero_momentum.i_0_0_t_i q om beta) ∧
    (∀ (q : ℝ) (om : T1) (m1 : T2) (m2 : T3) (beta : ℝ),
      thermal.zero_momentum.d_i_m_m_i q (-om) m1 m2 beta = thermal.zero_momentum.d_i_m_m_i q om m1 m2 beta) ∧
    (∀ (q : ℝ) (om : T1) (m : T2) (beta : ℝ),
      thermal.zero_momentum.d_i_m_m_i_same_mass q (-om) m beta = thermal.zero_momentum.d_i_m_m_i_same_mass q om m beta) ∧
    (∀ (q : ℝ) (om : T1) (m : T2) (beta : ℝ),
      thermal.zero_momentum.d_i_m_0_i q (-om) m beta = thermal.zero_momentum.d_i_m_0_i q om m beta) ∧
    (∀ (q : ℝ) (om : T) (beta : ℝ),
      thermal.zero_momentum.d_i_0_0_i q (-om) beta = thermal.zero_momentum.d_i_0_0_i q om beta) ∧
    (∀ (q : ℝ) (om : T1) (m1 : T2) (m2 : T3) (beta : ℝ),
      thermal.zero_momentum.d_i_m_m_l_i q (-om) m1 m2 beta = thermal.zero_momentum.d_i_m_m_l_i q om m1 m2 beta) ∧
    (∀ (q : ℝ) (om : T1) (m : T2) (beta : ℝ),
      thermal.zero_momentum.d_i_m_m_l_i_same_mass q (-om) m beta = thermal.zero_momentum.d_i_m_m_l_i_same_mass q om m beta) ∧
    (∀ (q : ℝ) (om : T1) (m : T2) (beta : ℝ),
      thermal.zero_momentum.d_i_m_0_l_i q (-om) m beta = thermal.zero_momentum.d_i_m_0_l_i q om m beta) ∧
    (∀ (q : ℝ) (om : T) (beta : ℝ),
      thermal.zero_momentum.d_i_0_0_l_i q (-om) beta = thermal.zero_momentum.d_i_0_0_l_i q om beta) ∧
    (∀ (q : ℝ) (om : T1) (m1 : T2) (m2 : T3) (beta : ℝ),
      thermal.zero_momentum.d_i_m_m_t_i q (-om) m1 m2 beta = thermal.zero_momentum.d_i_m_m_t_i q om m1 m2 beta) ∧
    (∀ (q : ℝ) (om : T1) (m : T2) (beta : ℝ),
      thermal.zero_momentum.d_i_m_m_t_i_same_mass q (-om) m beta = thermal.zero_momentum.d_i_m_m_t_i_same_mass q om m beta) ∧
    (∀ (q : ℝ) (om : T1) (m : T2) (beta : ℝ),
      thermal.zero_momentum.d_i_m_0_t_i q (-om) m beta = thermal.zero_momentum.d_i_m_0_t_i q om m beta) ∧
    (∀ (q : ℝ) (om : T) (beta : ℝ),
      thermal.zero_momentum.d_i_0_0_t_i q (-om) beta = thermal.zero_momentum.d_i_0_0_t_i q om beta) :=
  ⟨even_om_thermal_zero_momentum_i_m_m_i,
   even_om_thermal_zero_momentum_i_m_m_i_same_mass,
   even_om_thermal_zero_momentum_i_m_0_i,
   even_om_thermal_zero_momentum_i_0_0_i,
   even_om_thermal_zero_momentum_i_m_m_l_i,
   even_om_thermal_zero_momentum_i_m_m_l_i_same_mass,
   even_om_thermal_zero_momentum_i_m_0_l_i,
   even_om_thermal_zero_momentum_i_0_0_l_i,
   even_om_thermal_zero_momentum_i_m_m_t_i,
   even_om_thermal_zero_momentum_i_m_m_t_i_same_mass,
   even_om_thermal_zero_momentum_i_m_0_t_i,
   even_om_thermal_zero_momentum_i_0_0_t_i,
   even_om_thermal_zero_momentum_d_i_m_m_i,
   even_om_thermal_zero_momentum_d_i_m_m_i_same_mass,
   even_om_thermal_zero_momentum_d_i_m_0_i,
   even_om_thermal_zero_momentum_d_i_0_0_i,
   even_om_thermal_zero_momentum_d_i_m_m_l_i,
   even_om_thermal_zero_momentum_d_i_m_m_l_i_same_mass,
   even_om_thermal_zero_momentum_d_i_m_0_l_i,
   even_om_thermal_zero_momentum_d_i_0_0_l_i,
   even_om_thermal_zero_momentum_d_i_m_m_t_i,
   even_om_thermal_zero_momentum_d_i_m_m_t_i_same_mass,
   even_om_thermal_zero_momentum_d_i_m_0_t_i,
   even_om_thermal_zero_momentum_d_i_0_0_t_i⟩

/-- `ghost.thermal`: every integrand is even in the frequency, for all (real or complex) arguments. -/
theorem C36_frequency_ghost_thermal :
    (∀ (q : ℝ) (om : T) (p : ℝ) (m : ℝ) (beta : ℝ),
      ghost.thermal.self_energy_thermal_part_landau_i q (-om) p m beta = ghost.thermal.self_energy_thermal_part_landau_i q om p m beta) :=
  even_om_ghost_thermal_self_energy_thermal_part_landau_i

/-- `ghost.thermal.zero_momentum`: every integrand is even in the frequency, for all (real or complex) arguments. -/
theorem C36_frequency_ghost_thermal_zero_momentum :
    (∀ (q : ℝ) (om : T) (m : ℝ) (beta : ℝ),
      ghost.thermal.zero_momentum.self_energy_thermal_part_landau_i q (-om) m beta = ghost.thermal.zero_momentum.self_energy_thermal_part_landau_i q om m beta) :=
  even_om_ghost_thermal_zero_momentum_self_energy_thermal_part_landau_i

/-- `gluon.thermal`: every integrand is even in the frequency, for all (real or complex) arguments. -/
theorem C36_frequency_gluon_thermal :
    (∀ (q : ℝ) (om : T1) (p : T2) (m : ℝ) (beta : ℝ),
      gluon.thermal.polarization_glue_l_thermal_part_landau_i q (-om) p m beta = gluon.thermal.polarization_glue_l_thermal_part_landau_i q om p m beta) ∧
    (∀ (q : ℝ) (om : T) (p : ℝ) (m : ℝ) (beta : ℝ),
      gluon.thermal.polarization_glue_t_thermal_part_landau_i q (-om) p m beta = gluon.thermal.polarization_glue_t_thermal_part_landau_i q om p m beta) ∧
    (∀ (k : Consts ℝ) (q : ℝ) (om : T1) (p : T2) (mq : ℝ) (beta : ℝ) (mu : ℝ),
      gluon.thermal.polarization_quark_l_thermal_part_landau_i k q (-om) p mq beta mu = gluon.thermal.polarization_quark_l_thermal_part_landau_i k q om p mq beta mu) ∧
    (∀ (k : Consts ℝ) (q : ℝ) (om : T) (p : ℝ) (mq : ℝ) (beta : ℝ) (mu : ℝ),
      gluon.thermal.polarization_quark_t_thermal_part_landau_i k q (-om) p mq beta mu = gluon.thermal.polarization_quark_t_thermal_part_landau_i k q om p mq beta mu) ∧
    (∀ (k : Consts ℝ) (q : ℝ) (om : T1) (p : T2) (mq : ℝ) (mu : ℝ),
      gluon.thermal.polarization_quark_l_thermal_part_zero_temp_landau_i k q (-om) p mq mu = gluon.thermal.polarization_quark_l_thermal_part_zero_temp_landau_i k q om p mq mu) ∧
    (∀ (k : Consts ℝ) (q : ℝ) (om : T) (p : ℝ) (mq : ℝ) (mu : ℝ),
      gluon.thermal.polarization_quark_t_thermal_part_zero_temp_landau_i k q (-om) p mq mu = gluon.thermal.polarization_quark_t_thermal_part_zero_temp_landau_i k q om p mq mu) :=
  ⟨even_om_gluon_thermal_polarization_glue_l_thermal_part_landau_i,
   even_om_gluon_thermal_polarization_glue_t_thermal_part_landau_i,
   even_om_gluon_thermal_polarization_quark_l_thermal_part_landau_i,
   even_om_gluon_thermal_polarization_quark_t_thermal_part_landau_i,
   even_om_gluon_thermal_polarization_quark_l_thermal_part_zero_temp_landau_i,
   even_om_gluon_thermal_polarization_quark_t_thermal_part_zero_temp_landau_i⟩

/-- `gluon.thermal.zero_momentum`: every integrand is even in the frequency, for all (real or complex) arguments. -/
theorem C36_frequency_gluon_thermal_zero_momentum :
    (∀ (q : ℝ) (om : T) (m : ℝ) (beta : ℝ),
      gluon.thermal.zero_momentum.polarization_glue_l_thermal_part_landau_i q (-om) m beta = gluon.thermal.zero_momentum.polarization_glue_l_thermal_part_landau_i q om m beta) ∧
    (∀ (q : ℝ) (om : T) (m : ℝ) (beta : ℝ),
      gluon.thermal.zero_momentum.polarization_glue_t_thermal_part_landau_i q (-om) m beta = gluon.thermal.zero_momentum.polarization_glue_t_thermal_part_landau_i q om m beta) ∧
    (∀ (k : Consts ℝ) (q : ℝ) (om : T) (mq : ℝ) (beta : ℝ) (mu : ℝ),
      gluon.thermal.zero_momentum.polarization_quark_l_thermal_part_landau_i k q (-om) mq beta mu = gluon.thermal.zero_momentum.polarization_quark_l_thermal_part_landau_i k q om mq beta mu) ∧
    (∀ (k : Consts ℝ) (q : ℝ) (om : T) (mq : ℝ) (beta : ℝ) (mu : ℝ),
      gluon.thermal.zero_momentum.polarization_quark_t_thermal_part_landau_i k q (-om) mq beta mu = gluon.thermal.zero_momentum.polarization_quark_t_thermal_part_landau_i k q om mq beta mu) ∧
    (∀ (k : Consts ℝ) (q : ℝ) (om : T) (mq : ℝ) (mu : ℝ),
      gluon.thermal.zero_momentum.polarization_quark_l_thermal_part_zero_temp_landau_i k q (-om) mq mu = gluon.thermal.zero_momentum.polarization_quark_l_thermal_part_zero_temp_landau_i k q om mq mu) ∧
    (∀ (k : Consts ℝ) (q : ℝ) (om : T) (mq : ℝ) (mu : ℝ),
      gluon.thermal.zero_momentum.polarization_quark_t_thermal_part_zero_temp_landau_i k q (-om) mq mu = gluon.thermal.zero_momentum.polarization_quark_t_thermal_part_zero_temp_landau_i k q om mq mu) :=
  ⟨even_om_gluon_thermal_zero_momentum_polarization_glue_l_thermal_part_landau_i,
   even_om_gluon_thermal_zero_momentum_polarization_glue_t_thermal_part_landau_i,
   even_om_gluon_thermal_zero_momentum_polarization_quark_l_thermal_part_landau_i,
   even_om_gluon_thermal_zero_momentum_polarization_quark_t_thermal_part_landau_i,
   even_om_gluon_thermal_zero_momentum_polarization_quark_l_thermal_part_zero_temp_landau_i,
   even_om_gluon_thermal_zero_momentum_polarization_quark_t_thermal_part_zero_temp_landau_i⟩

/-- `thermal`: every integrand is even in the spatial momentum. -/
theorem C36_momentum_thermal :
    (∀ (q : ℝ) (om : ℂ) (p : ℝ) (m1 : ℝ) (m2 : ℝ) (beta : ℝ), InStrip om (energy q m1) → InStrip om (energy q m2) →
      thermal.i_m_m_i q om (-p) m1 m2 beta = thermal.i_m_m_i q om p m1 m2 beta) ∧
    (∀ (q : ℝ) (om : ℂ) (p : ℝ) (m : ℝ) (beta : ℝ), InStrip om (energy q m) →
      thermal.i_m_m_i_same_mass q om (-p) m beta = thermal.i_m_m_i_same_mass q om p m beta) ∧
    (∀ (q : ℝ) (om : ℂ) (p : ℝ) (m : ℝ) (beta : ℝ), InStrip om (energy q m) → InStrip om q →
      thermal.i_m_0_i q om (-p) m beta = thermal.i_m_0_i q om p m beta) ∧
    (∀ (q : ℝ) (om : ℂ) (p : ℝ) (beta : ℝ), InStrip om q →
      thermal.i_0_0_i q om (-p) beta = thermal.i_0_0_i q om p beta) ∧
    (∀ (q : ℝ) (om : ℂ) (p : ℝ) (m1 : ℝ) (m2 : ℝ) (beta : ℝ), InStrip om (energy q m1) → InStrip om (energy q m2) →
      thermal.i_m_m_l_i q om (-p) m1 m2 beta = thermal.i_m_m_l_i q om p m1 m2 beta) ∧
    (∀ (q : ℝ) (om : ℂ) (p : ℝ) (m : ℝ) (beta : ℝ), InStrip om (energy q m) →
      thermal.i_m_m_l_i_same_mass q om (-p) m beta = thermal.i_m_m_l_i_same_mass q om p m beta) ∧
    (∀ (q : ℝ) (om : ℂ) (p : ℝ) (m : ℝ) (beta : ℝ), InStrip om (energy q m) → InStrip om q →
      thermal.i_m_0_l_i q om (-p) m beta = thermal.i_m_0_l_i q om p m beta) ∧
    (∀ (q : ℝ) (om : ℂ) (p : ℝ) (beta : ℝ), InStrip om q →
      thermal.i_0_0_l_i q om (-p) beta = thermal.i_0_0_l_i q om p beta) ∧
    (∀ (q : ℝ) (om : ℂ) (p : ℝ) (m1 : ℝ) (m2 : ℝ) (beta : ℝ), InStrip om (energy q m1) → InStrip om (energy q m2) →
      thermal.i_m_m_t_i q om (-p) m1 m2 beta = thermal.i_m_m_t_i q om p m1 m2 beta) ∧
    (∀ (q : ℝ) (om : ℂ) (p : ℝ) (m : ℝ) (beta : ℝ), InStrip om (energy q m) →
      thermal.i_m_m_t_i_same_mass q om (-p) m beta = thermal.i_m_m_t_i_same_mass q om p m beta) ∧
    (∀ (q : ℝ) (om : ℂ) (p : ℝ) (m : ℝ) (beta : ℝ), InStrip om (energy q m) → InStrip om q →
      thermal.i_m_0_t_i q om (-p) m beta = thermal.i_m_0_t_i q om p m beta) ∧
    (∀ (q : ℝ) (om : ℂ) (p : ℝ) (beta : ℝ), InStrip om q →
      thermal.i_0_0_t_i q om (-p) beta = thermal.i_0_0_t_i q om p beta) ∧
    (∀ (q : ℝ) (om : ℂ) (p : ℝ) (m1 : ℝ) (m2 : ℝ) (beta : ℝ), InStrip om (energy q m1) → InStrip om (energy q m2) →
      thermal.d_i_m_m_i q om (-p) m1 m2 beta = thermal.d_i_m_m_i q om p m1 m2 beta) ∧
    (∀ (q : ℝ) (om : ℂ) (p : ℝ) (m : ℝ) (beta : ℝ), InStrip om (energy q m) →
      thermal.d_i_m_m_i_same_mass q om (-p) m beta = thermal.d_i_m_m_i_same_mass q om p m beta) ∧
    (∀ (q : ℝ) (om : ℂ) (p : ℝ) (m : ℝ) (beta : ℝ), InStrip om (energy q m) → InStrip om q →
      thermal.d_i_m_0_i q om (-p) m beta = thermal.d_i_m_0_i q om p m beta) ∧
    (∀ (q : ℝ) (om : ℂ) (p : ℝ) (beta : ℝ), InStrip om q →
      thermal.d_i_0_0_i q om (-p) beta = thermal.d_i_0_0_i q om p beta) ∧
    (∀ (q : ℝ) (om : ℂ) (p : ℝ) (m1 : ℝ) (m2 : ℝ) (beta : ℝ), InStrip om (energy q m1) → InStrip om (energy q m2) →
      thermal.d_i_m_m_l_i q om (-p) m1 m2 beta = thermal.d_i_m_m_l_i q om p m1 m2 beta) ∧
    (∀ (q : ℝ) (om : ℂ) (p : ℝ) (m : ℝ) (beta : ℝ), InStrip om (energy q m) →
      thermal.d_i_m_m_l_i_same_mass q om (-p) m beta = thermal.d_i_m_m_l_i_same_mass q om p m beta) ∧
    (∀ (q : ℝ) (om : ℂ) (p : ℝ) (m : ℝ) (beta : ℝ), InStrip om (energy q m) → InStrip om q →
      thermal.d_i_m_0_l_i q om (-p) m beta = thermal.d_i_m_0_l_i q om p m beta) ∧
    (∀ (q : ℝ) (om : ℂ) (p : ℝ) (beta : ℝ), InStrip om q →
      thermal.d_i_0_0_l_i q om (-p) beta = thermal.d_i_0_0_l_i q om p beta) ∧
    (∀ (q : ℝ) (om : ℂ) (p : ℝ) (m1 : ℝ) (m2 : ℝ) (beta : ℝ), InStrip om (energy q m1) → InStrip om (energy q m2) →
      thermal.d_i_m_m_t_i q om (-p) m1 m2 beta = thermal.d_i_m_m_t_i q om p m1 m2 beta) ∧
    (∀ (q : ℝ) (om : ℂ) (p : ℝ) (m : ℝ) (beta : ℝ), InStrip om (energy q m) →
      thermal.d_i_m_m_t_i_same_mass q om (-p) m beta = thermal.d_i_m_m_t_i_same_mass q om p m beta) ∧
    (∀ (q : ℝ) (om : ℂ) (p : ℝ) (m : ℝ) (beta : ℝ), InStrip om (energy q m) → InStrip om q →
      thermal.d_i_m_0_t_i q om (-p) m beta = thermal.d_i_m_0_t_i q om p m beta) ∧
    (∀ (q : ℝ) (om : ℂ) (p : ℝ) (beta : ℝ), InStrip om q →
      thermal.d_i_0_0_t_i q om (-p) beta = thermal.d_i_0_0_t_i q om p beta) :=
  ⟨even_p_thermal_i_m_m_i,
   even_p_thermal_i_m_m_i_same_mass,
   even_p_thermal_i_m_0_i,
   even_p_thermal_i_0_0_i,
   even_p_thermal_i_m_m_l_i,
   even_p_thermal_i_m_m_l_i_same_mass,
   even_p_thermal_i_m_0_l_i,
   even_p_thermal_i_0_0_l_i,
   even_p_thermal_i_m_m_t_i,
   even_p_thermal_i_m_m_t_i_same_mass,
   even_p_thermal_i_m_0_t_i,
   even_p_thermal_i_0_0_t_i,
   even_p_thermal_d_i_m_m_i,
   even_p_thermal_d_i_m_m_i_same_mass,
   even_p_thermal_d_i_m_0_i,
   even_p_thermal_d_i_0_0_i,
   even_p_thermal_d_i_m_m_l_i,
   even_p_thermal_d_i_m_m_l_i_same_mass,
   even_p_thermal_d_i_m_0_l_i,
   even_p_thermal_d_i_0_0_l_i,
   even_p_thermal_d_i_m_m_t_i,
   even_p_thermal_d_i_m_m_t_i_same_mass,
   even_p_thermal_d_i_m_0_t_i,
   even_p_thermal_d_i_0_0_t_i⟩

/-- `thermal.zero_matsubara`: every integrand is even in the spatial momentum. -/
theorem C36_momentum_thermal_zero_matsubara :
    (∀ (q : ℝ) (p : ℝ) (m1 : ℝ) (m2 : ℝ) (beta : ℝ),
      thermal.zero_matsubara.i_m_m_i q (-p) m1 m2 beta = thermal.zero_matsubara.i_m_m_i q p m1 m2 beta) ∧
    (∀ (q : ℝ) (p : ℝ) (m : ℝ) (beta : ℝ),
      thermal.zero_matsubara.i_m_m_i_same_mass q (-p) m beta = thermal.zero_matsubara.i_m_m_i_same_mass q p m beta) ∧
    (∀ (q : ℝ) (p : ℝ) (m : ℝ) (beta : ℝ),
      thermal.zero_matsubara.i_m_0_i q (-p) m beta = thermal.zero_matsubara.i_m_0_i q p m beta) ∧
    (∀ (q : ℝ) (p : ℝ) (beta : ℝ),
      thermal.zero_matsubara.i_0_0_i q (-p) beta = thermal.zero_matsubara.i_0_0_i q p beta) ∧
    (∀ (q : ℝ) (p : ℝ) (m1 : ℝ) (m2 : ℝ) (beta : ℝ),
      thermal.zero_matsubara.i_m_m_l_i q (-p) m1 m2 beta = thermal.zero_matsubara.i_m_m_l_i q p m1 m2 beta) ∧
    (∀ (q : ℝ) (p : ℝ) (m : ℝ) (beta : ℝ),
      thermal.zero_matsubara.i_m_m_l_i_same_mass q (-p) m beta = thermal.zero_matsubara.i_m_m_l_i_same_mass q p m beta) ∧
    (∀ (q : ℝ) (p : ℝ) (m : ℝ) (beta : ℝ),
      thermal.zero_matsubara.i_m_0_l_i q (-p) m beta = thermal.zero_matsubara.i_m_0_l_i q p m beta) ∧
    (∀ (q : ℝ) (p : ℝ) (beta : ℝ),
      thermal.zero_matsubara.i_0_0_l_i q (-p) beta = thermal.zero_matsubara.i_0_0_l_i q p beta) ∧
    (∀ (q : ℝ) (p : ℝ) (m1 : ℝ) (m2 : ℝ) (beta : ℝ),
      thermal.zero_matsubara.i_m_m_t_i q (-p) m1 m2 beta = thermal.zero_matsubara.i_m_m_t_i q p m1 m2 beta) ∧
    (∀ (q : ℝ) (p : ℝ) (m : ℝ) (beta : ℝ),
      thermal.zero_matsubara.i_m_m_t_i_same_mass q (-p) m beta = thermal.zero_matsubara.i_m_m_t_i_same_mass q p m beta) ∧
    (∀ (q : ℝ) (p : ℝ) (m : ℝ) (beta : ℝ),
      thermal.zero_matsubara.i_m_0_t_i q (-p) m beta = thermal.zero_matsubara.i_m_0_t_i q p m beta) ∧
    (∀ (q : ℝ) (p : ℝ) (beta : ℝ),
      thermal.zero_matsubara.i_0_0_t_i q (-p) beta = thermal.zero_matsubara.i_0_0_t_i q p beta) ∧
    (∀ (q : ℝ) (p : ℝ) (m1 : ℝ) (m2 : ℝ) (beta : ℝ),
      thermal.zero_matsubara.d_i_m_m_i q (-p) m1 m2 beta = thermal.zero_matsubara.d_i_m_m_i q p m1 m2 beta) ∧
    (∀ (q : ℝ) (p : ℝ) (m : ℝ) (beta : ℝ),
      thermal.zero_matsubara.d_i_m_m_i_same_mass q (-p) m beta = thermal.zero_matsubara.d_i_m_m_i_same_mass q p m beta) ∧
    (∀ (q : ℝ) (p : ℝ) (m : ℝ) (beta : ℝ),
      thermal.zero_matsubara.d_i_m_0_i q (-p) m beta = thermal.zero_matsubara.d_i_m_0_i q p m beta) ∧
    (∀ (q : ℝ) (p : ℝ) (beta : ℝ),
      thermal.zero_matsubara.d_i_0_0_i q (-p) beta = thermal.zero_matsubara.d_i_0_0_i q p beta) ∧
    (∀ (q : ℝ) (p : ℝ) (m1 : ℝ) (m2 : ℝ) (beta : ℝ),
      thermal.zero_matsubara.d_i_m_m_l_i q (-p) m1 m2 beta = thermal.zero_matsubara.d_i_m_m_l_i q p m1 m2 beta) ∧
    (∀ (q : ℝ) (p : ℝ) (m : ℝ) (beta : ℝ),
      thermal.zero_matsubara.d_i_m_m_l_i_same_mass q (-p) m beta = thermal.zero_matsubara.d_i_m_m_l_i_same_mass q p m beta) ∧
    (∀ (q : ℝ) (p : ℝ) (m : ℝ) (beta : ℝ),
      thermal.zero_matsubara.d_i_m_0_l_i q (-p) m beta = thermal.zero_matsubara.d_i_m_0_l_i q p m beta) ∧
    (∀ (q : ℝ) (p : ℝ) (beta : ℝ),
      thermal.zero_matsubara.d_i_0_0_l_i q (-p) beta = thermal.zero_matsubara.d_i_0_0_l_i q p beta) ∧
    (∀ (q : ℝ) (p : ℝ) (m1 : ℝ) (m2 : ℝ) (beta : ℝ),
      thermal.zero_matsubara.d_i_m_m_t_i q (-p) m1 m2 beta = thermal.zero_matsubara.d_i_m_m_t_i q p m1 m2 beta) ∧
    (∀ (q : ℝ) (p : ℝ) (m : ℝ) (beta : ℝ),
      thermal.zero_matsubara.d_i_m_m_t_i_same_mass q (-p) m beta = thermal.zero_matsubara.d_i_m_m_t_i_same_mass q p m beta) ∧
    (∀ (q : ℝ) (p : ℝ) (m : ℝ) (beta : ℝ),
      thermal.zero_matsubara.d_i_m_0_t_i q (-p) m beta = thermal.zero_matsubara.d_i_m_0_t_i q p m beta) ∧
    (∀ (q : ℝ) (p : ℝ) (beta : ℝ),
      thermal.zero_matsubara.d_i_0_0_t_i q (-p) beta = thermal.zero_matsubara.d_i_0_0_t_i q p beta) :=
  ⟨even_p_thermal_zero_matsubara_i_m_m_i,
   even_p_thermal_zero_matsubara_i_m_m_i_same_mass,
   even_p_thermal_zero_matsubara_i_m_0_i,
   even_p_thermal_zero_matsubara_i_0_0_i,
   even_p_thermal_zero_matsubara_i_m_m_l_i,
   even_p_thermal_zero_matsubara_i_m_m_l_i_same_mass,
   even_p_thermal_zero_matsubara_i_m_0_l_i,
   even_p_thermal_zero_matsubara_i_0_0_l_i,
   even_p_thermal_zero_matsubara_i_m_m_t_i,
   even_p_thermal_zero_matsubara_i_m_m_t_i_same_mass,
   even_p_thermal_zero_matsubara_i_m_0_t_i,
   even_p_thermal_zero_matsubara_i_0_0_t_i,
   even_p_thermal_zero_matsubara_d_i_m_m_i,
   even_p_thermal_zero_matsubara_d_i_m_m_i_same_mass,
   even_p_thermal_zero_matsubara_d_i_m_0_i,
   even_p_thermal_zero_matsubara_d_i_0_0_i,
   even_p_thermal_zero_matsubara_d_i_m_m_l_i,
   even_p_thermal_zero_matsubara_d_i_m_m_l_i_same_mass,
   even_p_thermal_zero_matsubara_d_i_m_0_l_i,
   even_p_thermal_zero_matsubara_d_i_0_0_l_i,
   even_p_thermal_zero_matsubara_d_i_m_m_t_i,
   even_p_thermal_zero_matsubara_d_i_m_m_t_i_same_mass,
   even_p_thermal_zero_matsubara_d_i_m_0_t_i,
   even_p_thermal_zero_matsubara_d_i_0_0_t_i⟩

/-- `ghost.thermal`: every integrand is even in the spatial momentum. -/
theorem C36_momentum_ghost_thermal :
    (∀ (q : ℝ) (om : ℂ) (p : ℝ) (m : ℝ) (beta : ℝ), InStrip om (energy q m) → InStrip om q →
      ghost.thermal.self_energy_thermal_part_landau_i q om (-p) m beta = ghost.thermal.self_energy_thermal_part_landau_i q om p m beta) :=
  even_p_ghost_thermal_self_energy_thermal_part_landau_i

/-- `ghost.thermal.zero_matsubara`: every integrand is even in the spatial momentum. -/
theorem C36_momentum_ghost_thermal_zero_matsubara :
    (∀ (q : ℝ) (p : ℝ) (m : ℝ) (beta : ℝ),
      ghost.thermal.zero_matsubara.self_energy_thermal_part_landau_i q (-p) m beta = ghost.thermal.zero_matsubara.self_energy_thermal_part_landau_i q p m beta) :=
  even_p_ghost_thermal_zero_matsubara_self_energy_thermal_part_landau_i

/-- `gluon.thermal`: every integrand is even in the spatial momentum. -/
theorem C36_momentum_gluon_thermal :
    (∀ (q : ℝ) (om : ℂ) (p : ℝ) (m : ℝ) (beta : ℝ), InStrip om (energy q m) → InStrip om q →
      gluon.thermal.polarization_glue_l_thermal_part_landau_i q om (-p) m beta = gluon.thermal.polarization_glue_l_thermal_part_landau_i q om p m beta) ∧
    (∀ (q : ℝ) (om : ℂ) (p : ℝ) (m : ℝ) (beta : ℝ), InStrip om (energy q m) → InStrip om q →
      gluon.thermal.polarization_glue_t_thermal_part_landau_i q om (-p) m beta = gluon.thermal.polarization_glue_t_thermal_part_landau_i q om p m beta) ∧
    (∀ (k : Consts ℝ) (q : ℝ) (om : ℂ) (p : ℝ) (mq : ℝ) (beta : ℝ) (mu : ℝ), InStrip om (energy q mq) →
      gluon.thermal.polarization_quark_l_thermal_part_landau_i k q om (-p) mq beta mu = gluon.thermal.polarization_quark_l_thermal_part_landau_i k q om p mq beta mu) ∧
    (∀ (k : Consts ℝ) (q : ℝ) (om : ℂ) (p : ℝ) (mq : ℝ) (beta : ℝ) (mu : ℝ), InStrip om (energy q mq) →
      gluon.thermal.polarization_quark_t_thermal_part_landau_i k q om (-p) mq beta mu = gluon.thermal.polarization_quark_t_thermal_part_landau_i k q om p mq beta mu) ∧
    (∀ (k : Consts ℝ) (q : ℝ) (om : ℂ) (p : ℝ) (mq : ℝ) (mu : ℝ), InStrip om (energy q mq) →
      gluon.thermal.polarization_quark_l_thermal_part_zero_temp_landau_i k q om (-p) mq mu = gluon.thermal.polarization_quark_l_thermal_part_zero_temp_landau_i k q om p mq mu) ∧
    (∀ (k : Consts ℝ) (q : ℝ) (om : ℂ) (p : ℝ) (mq : ℝ) (mu : ℝ), InStrip om (energy q mq) →
      gluon.thermal.polarization_quark_t_thermal_part_zero_temp_landau_i k q om (-p) mq mu = gluon.thermal.polarization_quark_t_thermal_part_zero_temp_landau_i k q om p mq mu) :=
  ⟨even_p_gluon_thermal_polarization_glue_l_thermal_part_landau_i,
   even_p_gluon_thermal_polarization_glue_t_thermal_part_landau_i,
   even_p_gluon_thermal_polarization_quark_l_thermal_part_landau_i,
   even_p_gluon_thermal_polarization_quark_t_thermal_part_landau_i,
   even_p_gluon_thermal_polarization_quark_l_thermal_part_zero_temp_landau_i,
   even_p_gluon_thermal_polarization_quark_t_thermal_part_zero_temp_landau_i⟩

/-- `gluon.thermal.zero_matsubara`: every integrand is even in the spatial momentum. -/
theorem C36_momentum_gluon_thermal_zero_matsubara :
    (∀ (q : ℝ) (p : ℝ) (m : ℝ) (beta : ℝ),
      gluon.thermal.zero_matsubara.polarization_glue_l_thermal_part_landau_i q (-p) m beta = gluon.thermal.zero_matsubara.polarization_glue_l_thermal_part_landau_i q p m beta) ∧
    (∀ (q : ℝ) (p : ℝ) (m : ℝ) (beta : ℝ),
      gluon.thermal.zero_matsubara.polarization_glue_t_thermal_part_landau_i q (-p) m beta = gluon.thermal.zero_matsubara.polarization_glue_t_thermal_part_landau_i q p m beta) ∧
    (∀ (k : Consts ℝ) (q : ℝ) (p : ℝ) (mq : ℝ) (beta : ℝ) (mu : ℝ),
      gluon.thermal.zero_matsubara.polarization_quark_l_thermal_part_landau_i k q (-p) mq beta mu = gluon.thermal.zero_matsubara.polarization_quark_l_thermal_part_landau_i k q p mq beta mu) ∧
    (∀ (k : Consts ℝ) (q : ℝ) (p : ℝ) (mq : ℝ) (beta : ℝ) (mu : ℝ),
      gluon.thermal.zero_matsubara.polarization_quark_t_thermal_part_landau_i k q (-p) mq beta mu = gluon.thermal.zero_matsubara.polarization_quark_t_thermal_part_landau_i k q p mq beta mu) ∧
    (∀ (k : Consts ℝ) (q : ℝ) (p : ℝ) (mq : ℝ) (mu : ℝ),
      gluon.thermal.zero_matsubara.polarization_quark_l_thermal_part_zero_temp_landau_i k q (-p) mq mu = gluon.thermal.zero_matsubara.polarization_quark_l_thermal_part_zero_temp_landau_i k q p mq mu) ∧
    (∀ (k : Consts ℝ) (q : ℝ) (p : ℝ) (mq : ℝ) (mu : ℝ),
      gluon.thermal.zero_matsubara.polarization_quark_t_thermal_part_zero_temp_landau_i k q (-p) mq mu = gluon.thermal.zero_matsubara.polarization_quark_t_thermal_part_zero_temp_landau_i k q p mq mu) :=
  ⟨even_p_gluon_thermal_zero_matsubara_polarization_glue_l_thermal_part_landau_i,
   even_p_gluon_thermal_zero_matsubara_polarization_glue_t_thermal_part_landau_i,
   even_p_gluon_thermal_zero_matsubara_polarization_quark_l_thermal_part_landau_i,
   even_p_gluon_thermal_zero_matsubara_polarization_quark_t_thermal_part_landau_i,
   even_p_gluon_thermal_zero_matsubara_polarization_quark_l_thermal_part_zero_temp_landau_i,
   even_p_gluon_thermal_zero_matsubara_polarization_quark_t_thermal_part_zero_temp_landau_i⟩

/-- `thermal`: at real arguments every integrand returned as a complex number is real. -/
theorem C37_thermal :
    (∀ (q : ℝ) (om : ℝ) (p : ℝ) (m1 : ℝ) (m2 : ℝ) (beta : ℝ), 0 < q → om ≠ 0 →
      (thermal.i_m_m_i q om p m1 m2 beta).im = 0) ∧
    (∀ (q : ℝ) (om : ℝ) (p : ℝ) (m : ℝ) (beta : ℝ), 0 < q → om ≠ 0 →
      (thermal.i_m_m_i_same_mass q om p m beta).im = 0) ∧
    (∀ (q : ℝ) (om : ℝ) (p : ℝ) (m : ℝ) (beta : ℝ), 0 < q → om ≠ 0 →
      (thermal.i_m_0_i q om p m beta).im = 0) ∧
    (∀ (q : ℝ) (om : ℝ) (p : ℝ) (beta : ℝ), 0 < q → om ≠ 0 →
      (thermal.i_0_0_i q om p beta).im = 0) ∧
    (∀ (q : ℝ) (om : ℝ) (p : ℝ) (m1 : ℝ) (m2 : ℝ) (beta : ℝ), 0 < q → om ≠ 0 →
      (thermal.i_m_m_l_i q om p m1 m2 beta).im = 0) ∧
    (∀ (q : ℝ) (om : ℝ) (p : ℝ) (m : ℝ) (beta : ℝ), 0 < q → om ≠ 0 →
      (thermal.i_m_m_l_i_same_mass q om p m beta).im = 0) ∧
    (∀ (q : ℝ) (om : ℝ) (p : ℝ) (m : ℝ) (beta : ℝ), 0 < q → om ≠ 0 →
      (thermal.i_m_0_l_i q om p m beta).im = 0) ∧
    (∀ (q : ℝ) (om : ℝ) (p : ℝ) (beta : ℝ), 0 < q → om ≠ 0 →
      (thermal.i_0_0_l_i q om p beta).im = 0) ∧
    (∀ (q : ℝ) (om : ℝ) (p : ℝ) (m1 : ℝ) (m2 : ℝ) (beta : ℝ), 0 < q → om ≠ 0 →
      (thermal.i_m_m_t_i q om p m1 m2 beta).im = 0) ∧
    (∀ (q : ℝ) (om : ℝ) (p : ℝ) (m : ℝ) (beta : ℝ), 0 < q → om ≠ 0 →
      (thermal.i_m_m_t_i_same_mass q om p m beta).im = 0) ∧
    (∀ (q : ℝ) (om : ℝ) (p : ℝ) (m : ℝ) (beta : ℝ), 0 < q → om ≠ 0 →
      (thermal.i_m_0_t_i q om p m beta).im = 0) ∧
    (∀ (q : ℝ) (om : ℝ) (p : ℝ) (beta : ℝ), 0 < q → om ≠ 0 →
      (thermal.i_0_0_t_i q om p beta).im = 0) ∧
    (∀ (q : ℝ) (om : ℝ) (p : ℝ) (m1 : ℝ) (m2 : ℝ) (beta : ℝ), 0 < q → om ≠ 0 →
      (thermal.d_i_m_m_i q om p m1 m2 beta).im = 0) ∧
    (∀ (q : ℝ) (om : ℝ) (p : ℝ) (m : ℝ) (beta : ℝ), 0 < q → om ≠ 0 →
      (thermal.d_i_m_m_i_same_mass q om p m beta).im = 0) ∧
    (∀ (q : ℝ) (om : ℝ) (p : ℝ) (m : ℝ) (beta : ℝ), 0 < q → om ≠ 0 →
      (thermal.d_i_m_0_i q om p m beta).im = 0) ∧
    (∀ (q : ℝ) (om : ℝ) (p : ℝ) (beta : ℝ), 0 < q → om ≠ 0 →
      (thermal.d_i_0_0_i q om p beta).im = 0) ∧
    (∀ (q : ℝ) (om : ℝ) (p : ℝ) (m1 : ℝ) (m2 : ℝ) (beta : ℝ), 0 < q → om ≠ 0 →
      (thermal.d_i_m_m_l_i q om p m1 m2 beta).im = 0) ∧
    (∀ (q : ℝ) (om : ℝ) (p : ℝ) (m : ℝ) (beta : ℝ), 0 < q → om ≠ 0 →
      (thermal.d_i_m_m_l_i_same_mass q om p m beta).im = 0) ∧
    (∀ (q : ℝ) (om : ℝ) (p : ℝ) (m : ℝ) (beta : ℝ), 0 < q → om ≠ 0 →
      (thermal.d_i_m_0_l_i q om p m beta).im = 0) ∧
    (∀ (q : ℝ) (om : ℝ) (p : ℝ) (beta : ℝ), 0 < q → om ≠ 0 →
      (thermal.d_i_0_0_l_i q om p beta).im = 0) ∧
    (∀ (q : ℝ) (om : ℝ) (p : ℝ) (m1 : ℝ) (m2 : ℝ) (beta : ℝ), 0 < q → om ≠ 0 →
      (thermal.d_i_m_m_t_i q om p m1 m2 beta).im = 0) ∧
    (∀ (q : ℝ) (om : ℝ) (p : ℝ) (m : ℝ) (beta : ℝ), 0 < q → om ≠ 0 →
      (thermal.d_i_m_m_t_i_same_mass q om p m beta).im = 0) ∧
    (∀ (q : ℝ) (om : ℝ) (p : ℝ) (m : ℝ) (beta : ℝ), 0 < q → om ≠ 0 →
      (thermal.d_i_m_0_t_i q om p m beta).im = 0) ∧
    (∀ (q : ℝ) (om : ℝ) (p : ℝ) (beta : ℝ), 0 < q → om ≠ 0 →
      (thermal.d_i_0_0_t_i q om p beta).im = 0) :=
  ⟨fun q om p m1 m2 beta hq hom => Complex.conj_eq_iff_im.1 (conj_thermal_i_m_m_i q om p m1 m2 beta hq hom),
   fun q om p m beta hq hom => Complex.conj_eq_iff_im.1 (conj_thermal_i_m_m_i_same_mass q om p m beta hq hom),
   fun q om p m beta hq hom => Complex.conj_eq_iff_im.1 (conj_thermal_i_m_0_i q om p m beta hq hom),
   fun q om p beta hq hom => Complex.conj_eq_iff_im.1 (conj_thermal_i_0_0_i q om p beta hq hom),
   fun q om p m1 m2 beta hq hom => Complex.conj_eq_iff_im.1 (conj_thermal_i_m_m_l_i q om p m1 m2 beta hq hom),
   fun q om p m beta hq hom => Complex.conj_eq_iff_im.1 (conj_thermal_i_m_m_l_i_same_mass q om p m beta hq hom),
   fun q om p m beta hq hom => Complex.conj_eq_iff_im.1 (conj_thermal_i_m_0_l_i q om p m beta hq hom),
   fun q om p beta hq hom => Complex.conj_eq_iff_im.1 (conj_thermal_i_0_0_l_i q om p beta hq hom),
   fun q om p m1 m2 beta hq hom => Complex.conj_eq_iff_im.1 (conj_thermal_i_m_m_t_i q om p m1 m2 beta hq hom),
   fun q om p m beta hq hom => Complex.conj_eq_iff_im.1 (conj_thermal_i_m_m_t_i_same_mass q om p m beta hq hom),
   fun q om p m beta hq hom => Complex.conj_eq_iff_im.1 (conj_thermal_i_m_0_t_i q om p m beta hq hom),
   fun q om p beta hq hom => Complex.conj_eq_iff_im.1 (conj_thermal_i_0_0_t_i q om p beta hq hom),
   fun q om p m1 m2 beta hq hom => Complex.conj_eq_iff_im.1 (conj_thermal_d_i_m_m_i q om p m1 m2 beta hq hom),
   fun q om p m beta hq hom => Complex.conj_eq_iff_im.1 (conj_thermal_d_i_m_m_i_same_mass q om p m beta hq hom),
   fun q om p m beta hq hom => Complex.conj_eq_iff_im.1 (conj_thermal_d_i_m_0_i q om p m beta hq hom),
   fun q om p beta hq hom => Complex.conj_eq_iff_im.1 (conj_thermal_d_i_0_0_i q om p beta hq hom),
   fun q om p m1 m2 beta hq hom => Complex.conj_eq_iff_im.1 (conj_thermal_d_i_m_m_l_i q om p m1 m2 beta hq hom),
   fun q om p m beta hq hom => Complex.conj_eq_iff_im.1 (conj_thermal_d_i_m_m_l_i_same_mass q om p m beta hq hom),
   fun q om p m beta hq hom => Complex.conj_eq_iff_im.1 (conj_thermal_d_i_m_0_l_i q om p m beta hq hom),
   fun q om p beta hq hom => Complex.conj_eq_iff_im.1 (conj_thermal_d_i_0_0_l_i q om p beta hq hom),
   fun q om p m1 m2 beta hq hom => Complex.conj_eq_iff_im.1 (conj_thermal_d_i_m_m_t_i q om p m1 m2 beta hq hom),
   fun q om p m beta hq hom => Complex.conj_eq_iff_im.1 (conj_thermal_d_i_m_m_t_i_same_mass q om p m beta hq hom),
   fun q om p m beta hq hom => Complex.conj_eq_iff_im.1 (conj_thermal_d_i_m_0_t_i q om p m beta hq hom),
   fun q om p beta hq hom => Complex.conj_eq_iff_im.1 (conj_thermal_d_i_0_0_t_i q om p beta hq hom)⟩

/-- `thermal.zero_momentum`: at real arguments every integrand returned as a complex number is real. -/
theorem C37_thermal_zero_momentum :
    (∀ (q : ℝ) (om : ℝ) (m1 : ℝ) (m2 : ℝ) (beta : ℝ), 0 < q → om ≠ 0 →
      (thermal.zero_momentum.i_m_m_i q om m1 m2 beta).im = 0) ∧
    (∀ (q : ℝ) (om : ℝ) (m : ℝ) (beta : ℝ), 0 < q → om ≠ 0 →
      (thermal.zero_momentum.i_m_m_i_same_mass q om m beta).im = 0) ∧
    (∀ (q : ℝ) (om : ℝ) (m : ℝ) (beta : ℝ), 0 < q → om ≠ 0 →
      (thermal.zero_momentum.i_m_0_i q om m beta).im = 0) ∧
    (∀ (q : ℝ) (om : ℝ) (beta : ℝ), 0 < q → om ≠ 0 →
      (thermal.zero_momentum.i_0_0_i q om beta).im = 0) ∧
    (∀ (q : ℝ) (om : ℝ) (m1 : ℝ) (m2 : ℝ) (beta : ℝ), 0 < q → om ≠ 0 →
      (thermal.zero_momentum.i_m_m_l_i q om m1 m2 beta).im = 0) ∧
    (∀ (q : ℝ) (om : ℝ) (m : ℝ) (beta : ℝ), 0 < q → om ≠ 0 →
      (thermal.zero_momentum.i_m_m_l_i_same_mass q om m beta).im = 0) ∧
    (∀ (q : ℝ) (om : ℝ) (m : ℝ) (beta : ℝ), 0 < q → om ≠ 0 →
      (thermal.zero_momentum.i_m_0_l_i q om m beta).im = 0) ∧
    (∀ (q : ℝ) (om : ℝ) (beta : ℝ), 0 < q → om ≠ 0 →
      (thermal.zero_momentum.i_0_0_l_i q om beta).im = 0) ∧
    (∀ (q : ℝ) (om : ℝ) (m1 : ℝ) (m2 : ℝ) (beta : ℝ), 0 < q → om ≠ 0 →
      (thermal.zero_momentum.i_m_m_t_i q om m1 m2 beta).im = 0) ∧
    (∀ (q : ℝ) (om : ℝ) (m : ℝ) (beta : ℝ), 0 < q → om ≠ 0 →
      (thermal.zero_momentum.i_m_m_t_i_same_mass q om m beta).im = 0) ∧
    (∀ (q : ℝ) (om : ℝ) (m : ℝ) (beta : ℝ), 0 < q → om ≠ 0 →
      (thermal.zero_momentum.i_m_0_t_i q om m beta).im = 0) ∧
    (∀ (q : ℝ) (om : ℝ) (beta : ℝ), 0 < q → om ≠ 0 →
      (thermal.zero_momentum.i_0_0_t_i q om beta).im = 0) ∧
    (∀ (q : ℝ) (om : ℝ) (m1 : ℝ) (m2 : ℝ) (beta : ℝ), 0 < q → om ≠ 0 →
      (thermal.zero_momentum.d_i_m_m_i q om m1 m2 beta).im = 0) ∧
    (∀ (q : ℝ) (om : ℝ) (m : ℝ) (beta : ℝ), 0 < q → om ≠ 0 →
      (thermal.zero_momentum.d_i_m_m_i_same_mass q om m beta).im = 0) ∧
    (∀ (q : ℝ) (om : ℝ) (m : ℝ) (beta : ℝ), 0 < q → om ≠ 0 →
      (thermal.zero_momentum.d_i_m_0_i q om m beta).im = 0) ∧
    (∀ (q : ℝ) (om : ℝ) (beta : ℝ), 0 < q → om ≠ 0 →
      (thermal.zero_momentum.d_i_0_0_i q om beta).im = 0) ∧
    (∀ (q : ℝ) (om : ℝ) (m1 : ℝ) (m2 : ℝ) (beta : ℝ), 0 < q → om ≠ 0 →
      (thermal.zero_momentum.d_i_m_m_l_i q om m1 m2 beta).im = 0) ∧
    (∀ (q : ℝ) (om : ℝ) (m : ℝ) (beta : ℝ), 0 < q → om ≠ 0 →
      (thermal.zero_momentum.d_i_m_m_l_i_same_mass q om m beta).im = 0) ∧
    (∀ (q : ℝ) (om : ℝ) (m : ℝ) (beta : ℝ), 0 < q → om ≠ 0 →
      (thermal.zero_momentum.d_i_m_0_l_i q om m beta).im = 0) ∧
    (∀ (q : ℝ) (om : ℝ) (beta : ℝ), 0 < q → om ≠ 0 →
      (thermal.zero_momentum.d_i_0_0_l_i q om beta).im = 0) ∧
    (∀ (q : ℝ) (om : ℝ) (m1 : ℝ) (m2 : ℝ) (beta : ℝ), 0 < q → om ≠ 0 →
      (thermal.zero_momentum.d_i_m_m_t_i q om m1 m2 beta).im = 0) ∧
    (∀ (q : ℝ) (om : ℝ) (m : ℝ) (beta : ℝ), 0 < q → om ≠ 0 →
      (thermal.zero_momentum.d_i_m_m_t_i_same_mass q om m beta).im = 0) ∧
    (∀ (q : ℝ) (om : ℝ) (m : ℝ) (beta : ℝ), 0 < q → om ≠ 0 →
      (thermal.zero_momentum.d_i_m_0_t_i q om m beta).im = 0) ∧
    (∀ (q : ℝ) (om : ℝ) (beta : ℝ), 0 < q → om ≠ 0 →
      (thermal.zero_momentum.d_i_0_0_t_i q om beta).im = 0) :=
  ⟨fun q om m1 m2 beta hq hom => Complex.conj_eq_iff_im.1 (conj_thermal_zero_momentum_i_m_m_i q om m1 m2 beta hq hom),
   fun q om m beta hq hom => Complex.conj_eq_iff_im.1 (conj_thermal_zero_momentum_i_m_m_i_same_mass q om m beta hq hom),
   fun q om m beta hq hom => Complex.conj_eq_iff_im.1 (conj_thermal_zero_momentum_i_m_0_i q om m beta hq hom),
   fun q om beta hq hom => Complex.conj_eq_iff_im.1 (conj_thermal_zero_momentum_i_0_0_i q om beta hq hom),
   fun q om m1 m2 beta hq hom => Complex.conj_eq_iff_im.1 (conj_thermal_zero_momentum_i_m_m_l_i q om m1 m2 beta hq hom),
   fun q om m beta hq hom => Complex.conj_eq_iff_im.1 (conj_thermal_zero_momentum_i_m_m_l_i_same_mass q om m beta hq hom),
   fun q om m beta hq hom => Complex.conj_eq_iff_im.1 (conj_thermal_zero_momentum_i_m_0_l_i q om m beta hq hom),
   fun q om beta hq hom => Complex.conj_eq_iff_im.1 (conj_thermal_zero_momentum_i_0_0_l_i q om beta hq hom),
   fun q om m1 m2 beta hq hom => Complex.conj_eq_iff_im.1 (conj_thermal_zero_momentum_i_m_m_t_i q om m1 m2 beta hq hom),
   fun q om m beta hq hom => Complex.conj_eq_iff_im.1 (conj_thermal_zero_momentum_i_m_m_t_i_same_mass q om m beta hq hom),
   fun q om m beta hq hom => Complex.conj_eq_iff_im.1 (conj_thermal_zero_momentum_i_m_0_t_i q om m beta hq hom),
   fun q om beta hq hom => Complex.conj_eq_iff_im.1 (conj_thermal_zero_momentum_i_0_0_t_i q om beta hq hom),
   fun q om m1 m2 beta hq hom => Complex.conj_eq_iff_im.1 (conj_thermal_zero_momentum_d_i_m_m_i q om m1 m2 beta hq hom),
   fun q om m beta hq hom => Complex.conj_eq_iff_im.1 (conj_thermal_zero_momentum_d_i_m_m_i_same_mass q om m beta hq hom),
   fun q om m beta hq hom => Complex.conj_eq_iff_im.1 (conj_thermal_zero_momentum_d_i_m_0_i q om m beta hq hom),
   fun q om beta hq hom => Complex.conj_eq_iff_im.1 (conj_thermal_zero_momentum_d_i_0_0_i q om beta hq hom),
   fun q om m1 m2 beta hq hom => Complex.conj_eq_iff_im.1 (conj_thermal_zero_momentum_d_i_m_m_l_i q om m1 m2 beta hq hom),
   fun q om m beta hq hom => Complex.conj_eq_iff_im.1 (conj_thermal_zero_momentum_d_i_m_m_l_i_same_mass q om m beta hq hom),
   fun q om m beta hq hom => Complex.conj_eq_iff_im.1 (conj_thermal_zero_momentum_d_i_m_0_l_i q om m beta hq hom),
   fun q om beta hq hom => Complex.conj_eq_iff_im.1 (conj_thermal_zero_momentum_d_i_0_0_l_i q om beta hq hom),
   fun q om m1 m2 beta hq hom => Complex.conj_eq_iff_im.1 (conj_thermal_zero_momentum_d_i_m_m_t_i q om m1 m2 beta hq hom),
   fun q om m beta hq hom => Complex.conj_eq_iff_im.1 (conj_thermal_zero_momentum_d_i_m_m_t_i_same_mass q om m beta hq hom),
   fun q om m beta hq hom => Complex.conj_eq_iff_im.1 (conj_thermal_zero_momentum_d_i_m_0_t_i q om m beta hq hom),
   fun q om beta hq hom => Complex.conj_eq_iff_im.1 (conj_thermal_zero_momentum_d_i_0_0_t_i q om beta hq hom)⟩

/-- `thermal.zero_matsubara`: at real arguments every integrand returned as a complex number is real. -/
theorem C37_thermal_zero_matsubara :
    (∀ (q : ℝ) (p : ℝ) (m1 : ℝ) (m2 : ℝ) (beta : ℝ),
      (thermal.zero_matsubara.i_m_m_i q p m1 m2 beta).im = 0) ∧
    (∀ (q : ℝ) (p : ℝ) (m : ℝ) (beta : ℝ),
      (thermal.zero_matsubara.i_m_0_i q p m beta).im = 0) ∧
    (∀ (q : ℝ) (p : ℝ) (m1 : ℝ) (m2 : ℝ) (beta : ℝ),
      (thermal.zero_matsubara.i_m_m_l_i q p m1 m2 beta).im = 0) ∧
    (∀ (q : ℝ) (p : ℝ) (m : ℝ) (beta : ℝ),
      (thermal.zero_matsubara.i_m_0_l_i q p m beta).im = 0) ∧
    (∀ (q : ℝ) (p : ℝ) (m1 : ℝ) (m2 : ℝ) (beta : ℝ),
      (thermal.zero_matsubara.i_m_m_t_i q p m1 m2 beta).im = 0) ∧
    (∀ (q : ℝ) (p : ℝ) (m : ℝ) (beta : ℝ),
      (thermal.zero_matsubara.i_m_0_t_i q p m beta).im = 0) ∧
    (∀ (q : ℝ) (p : ℝ) (m1 : ℝ) (m2 : ℝ) (beta : ℝ),
      (thermal.zero_matsubara.d_i_m_m_i q p m1 m2 beta).im = 0) ∧
    (∀ (q : ℝ) (p : ℝ) (m1 : ℝ) (m2 : ℝ) (beta : ℝ),
      (thermal.zero_matsubara.d_i_m_m_l_i q p m1 m2 beta).im = 0) ∧
    (∀ (q : ℝ) (p : ℝ) (m1 : ℝ) (m2 : ℝ) (beta : ℝ),
      (thermal.zero_matsubara.d_i_m_m_t_i q p m1 m2 beta).im = 0) ∧
    (∀ (q : ℝ) (p : ℝ) (m : ℝ) (beta : ℝ),
      (thermal.zero_matsubara.d_i_m_0_t_i q p m beta).im = 0) :=
  ⟨fun q p m1 m2 beta => Complex.conj_eq_iff_im.1 (conj_thermal_zero_matsubara_i_m_m_i q p m1 m2 beta),
   fun q p m beta => Complex.conj_eq_iff_im.1 (conj_thermal_zero_matsubara_i_m_0_i q p m beta),
   fun q p m1 m2 beta => Complex.conj_eq_iff_im.1 (conj_thermal_zero_matsubara_i_m_m_l_i q p m1 m2 beta),
   fun q p m beta => Complex.conj_eq_iff_im.1 (conj_thermal_zero_matsubara_i_m_0_l_i q p m beta),
   fun q p m1 m2 beta => Complex.conj_eq_iff_im.1 (conj_thermal_zero_matsubara_i_m_m_t_i q p m1 m2 beta),
   fun q p m beta => Complex.conj_eq_iff_im.1 (conj_thermal_zero_matsubara_i_m_0_t_i q p m beta),
   fun q p m1 m2 beta => Complex.conj_eq_iff_im.1 (conj_thermal_zero_matsubara_d_i_m_m_i q p m1 m2 beta),
   fun q p m1 m2 beta => Complex.conj_eq_iff_im.1 (conj_thermal_zero_matsubara_d_i_m_m_l_i q p m1 m2 beta),
   fun q p m1 m2 beta => Complex.conj_eq_iff_im.1 (conj_thermal_zero_matsubara_d_i_m_m_t_i q p m1 m2 beta),
   fun q p m beta => Complex.conj_eq_iff_im.1 (conj_thermal_zero_matsubara_d_i_m_0_t_i q p m beta)⟩

/-- `ghost.thermal`: at real arguments every integrand returned as a complex number is real. -/
theorem C37_ghost_thermal :
    (∀ (q : ℝ) (om : ℝ) (p : ℝ) (m : ℝ) (beta : ℝ), 0 < q → om ≠ 0 →
      (ghost.thermal.self_energy_thermal_part_landau_i q om p m beta).im = 0) :=
  fun q om p m beta hq hom => Complex.conj_eq_iff_im.1 (conj_ghost_thermal_self_energy_thermal_part_landau_i q om p m beta hq hom)

/-- `ghost.thermal.zero_momentum`: at real arguments every integrand returned as a complex number is real. -/
theorem C37_ghost_thermal_zero_momentum :
    (∀ (q : ℝ) (om : ℝ) (m : ℝ) (beta : ℝ), 0 < q → om ≠ 0 →
      (ghost.thermal.zero_momentum.self_energy_thermal_part_landau_i q om m beta).im = 0) :=
  fun q om m beta hq hom => Complex.conj_eq_iff_im.1 (conj_ghost_thermal_zero_momentum_self_energy_thermal_part_landau_i q om m beta hq hom)

/-- `ghost.thermal.zero_matsubara`: at real arguments every integrand returned as a complex number is real. -/
theorem C37_ghost_thermal_zero_matsubara :
    (∀ (q : ℝ) (p : ℝ) (m : ℝ) (beta : ℝ),
      (ghost.thermal.zero_matsubara.self_energy_thermal_part_landau_i q p m beta).im = 0) :=
  fun q p m beta => Complex.conj_eq_iff_im.1 (conj_ghost_thermal_zero_matsubara_self_energy_thermal_part_landau_i q p m beta)

/-- `gluon.thermal`: at real arguments every integrand returned as a complex number is real. -/
theorem C37_gluon_thermal :
    (∀ (q : ℝ) (om : ℝ) (p : ℝ) (m : ℝ) (beta : ℝ), 0 < q → om ≠ 0 →
      (gluon.thermal.polarization_glue_l_thermal_part_landau_i q om p m beta).im = 0) ∧
    (∀ (q : ℝ) (om : ℝ) (p : ℝ) (m : ℝ) (beta : ℝ), 0 < q → om ≠ 0 →
      (gluon.thermal.polarization_glue_t_thermal_part_landau_i q om p m beta).im = 0) ∧
    (∀ (k : Consts ℝ) (q : ℝ) (om : ℝ) (p : ℝ) (mq : ℝ) (beta : ℝ) (mu : ℝ), 0 < q → om ≠ 0 →
      (gluon.thermal.polarization_quark_l_thermal_part_landau_i k q om p mq beta mu).im = 0) ∧
    (∀ (k : Consts ℝ) (q : ℝ) (om : ℝ) (p : ℝ) (mq : ℝ) (beta : ℝ) (mu : ℝ), 0 < q → om ≠ 0 →
      (gluon.thermal.polarization_quark_t_thermal_part_landau_i k q om p mq beta mu).im = 0) ∧
    (∀ (k : Consts ℝ) (q : ℝ) (om : ℝ) (p : ℝ) (mq : ℝ) (mu : ℝ), 0 < q → om ≠ 0 →
      (gluon.thermal.polarization_quark_l_thermal_part_zero_temp_landau_i k q om p mq mu).im = 0) ∧
    (∀ (k : Consts ℝ) (q : ℝ) (om : ℝ) (p : ℝ) (mq : ℝ) (mu : ℝ), 0 < q → om ≠ 0 →
      (gluon.thermal.polarization_quark_t_thermal_part_zero_temp_landau_i k q om p mq mu).im = 0) :=
  ⟨fun q om p m beta hq hom => Complex.conj_eq_iff_im.1 (conj_gluon_thermal_polarization_glue_l_thermal_part_landau_i q om p m beta hq hom),
   fun q om p m beta hq hom => Complex.conj_eq_iff_im.1 (conj_gluon_thermal_polarization_glue_t_thermal_part_landau_i q om p m beta hq hom),
   fun k q om p mq beta mu hq hom => Complex.conj_eq_iff_im.1 (conj_gluon_thermal_polarization_quark_l_thermal_part_landau_i k q om p mq beta mu hq hom),
   fun k q om p mq beta mu hq hom => Complex.conj_eq_iff_im.1 (conj_gluon_thermal_polarization_quark_t_thermal_part_landau_i k q om p mq beta mu hq hom),
   fun k q om p mq mu hq hom => Complex.conj_eq_iff_im.1 (conj_gluon_thermal_polarization_quark_l_thermal_part_zero_temp_landau_i k q om p mq mu hq hom),
   fun k q om p mq mu hq hom => Complex.conj_eq_iff_im.1 (conj_gluon_thermal_polarization_quark_t_thermal_part_zero_temp_landau_i k q om p mq mu hq hom)⟩

/-- `gluon.thermal.zero_matsubara`: at real arguments every integrand returned as a complex number is real. -/
theorem C37_gluon_thermal_zero_matsubara :
    (∀ (q : ℝ) (p : ℝ) (m : ℝ) (beta : ℝ),
      (gluon.thermal.zero_matsubara.polarization_glue_l_thermal_part_landau_i q p m beta).im = 0) ∧
    (∀ (q : ℝ) (p : ℝ) (m : ℝ) (beta : ℝ),
      (gluon.thermal.zero_matsubara.polarization_glue_t_thermal_part_landau_i q p m beta).im = 0) :=
  ⟨fun q p m beta => Complex.conj_eq_iff_im.1 (conj_gluon_thermal_zero_matsubara_polarization_glue_l_thermal_part_landau_i q p m beta),
   fun q p m beta => Complex.conj_eq_iff_im.1 (conj_gluon_thermal_zero_matsubara_polarization_glue_t_thermal_part_landau_i q p m beta)⟩

/-- `gluon.thermal.zero_momentum`: at real arguments every integrand returned as a complex number is real. -/
theorem C37_gluon_thermal_zero_momentum :
    (∀ (q : ℝ) (om : ℝ) (m : ℝ) (beta : ℝ), 0 < q → om ≠ 0 →
      (gluon.thermal.zero_momentum.polarization_glue_l_thermal_part_landau_i q om m beta).im = 0) ∧
    (∀ (q : ℝ) (om : ℝ) (m : ℝ) (beta : ℝ), 0 < q → om ≠ 0 →
      (gluon.thermal.zero_momentum.polarization_glue_t_thermal_part_landau_i q om m beta).im = 0) :=
  ⟨fun q om m beta hq hom => Complex.conj_eq_iff_im.1 (conj_gluon_thermal_zero_momentum_polarization_glue_l_thermal_part_landau_i q om m beta hq hom),
   fun q om m beta hq hom => Complex.conj_eq_iff_im.1 (conj_gluon_thermal_zero_momentum_polarization_glue_t_thermal_part_landau_i q om m beta hq hom)⟩

/-- At real nonzero frequency the denominators `r_0 ± 2qp` do not vanish and the quotient under the
logarithm is off the branch cut (in particular not zero), for all real masses. -/
theorem C38_denominators (q om p m1 m2 : ℝ) (hq : 0 < q) (hom : om ≠ 0) :
    r_0 om p (energy q m1) (m2 * m2 - m1 * m1) + ((2 * q * p : ℝ) : ℂ) ≠ 0 ∧
    r_0 om p (energy q m1) (m2 * m2 - m1 * m1) - ((2 * q * p : ℝ) : ℂ) ≠ 0 ∧
    (r_0 om p (energy q m1) (m2 * m2 - m1 * m1) + ((2 * q * p : ℝ) : ℂ)) /
      (r_0 om p (energy q m1) (m2 * m2 - m1 * m1) - ((2 * q * p : ℝ) : ℂ)) ∈ Complex.slitPlane ∧
    r_0 om p (energy q m1) (m2 * m2 - m1 * m1) ≠ 0 ∧
    energy q m1 ≠ 0 := by
  have h : (r_0 om p (energy q m1) (m2 * m2 - m1 * m1)).im ≠ 0 := by
    rw [r_0_eq]
    exact (InStrip.ofReal hom (energy_pos (m := m1) hq)).R0 p (by simp) (by simp) (by simp)
  refine ⟨?_, ?_, ?_, ?_, (energy_pos hq).ne'⟩
  · have := quot_num_ne h (2 * q * p); rwa [add_comm] at this
  · have := quot_num_ne h (-(2 * q * p)); rwa [Complex.ofReal_neg, neg_add_eq_sub] at this
  · have := quot_mem_slit h (2 * q * p); rwa [add_comm, neg_add_eq_sub] at this
  · intro h0; exact h (by rw [h0]; rfl)

/-- The logarithm the code evaluates is the principal logarithm of that quotient, so it is
an analytic function of its arguments there. -/
theorem C38_tlog (q om p m1 m2 : ℝ) :
    tlog q om p (energy q m1) (m2 * m2 - m1 * m1) =
      Complex.log ((r_0 om p (energy q m1) (m2 * m2 - m1 * m1) + ((2 * q * p : ℝ) : ℂ)) /
      (r_0 om p (energy q m1) (m2 * m2 - m1 * m1) - ((2 * q * p : ℝ) : ℂ))) := by
  simp only [tlog_eq, r_0_eq, TL, toC_real]
  push_cast
  congr 2 <;> ring

/-- The same in the strip of complex frequencies. -/
theorem C38_strip (q p m1 m2 : ℝ) (om : ℂ) (h : InStrip om (energy q m1)) :
    r_0 om p (energy q m1) (m2 * m2 - m1 * m1) + ((2 * q * p : ℝ) : ℂ) ≠ 0 ∧
    r_0 om p (energy q m1) (m2 * m2 - m1 * m1) - ((2 * q * p : ℝ) : ℂ) ≠ 0 ∧
    (r_0 om p (energy q m1) (m2 * m2 - m1 * m1) + ((2 * q * p : ℝ) : ℂ)) /
      (r_0 om p (energy q m1) (m2 * m2 - m1 * m1) - ((2 * q * p : ℝ) : ℂ)) ∈ Complex.slitPlane := by
  have h : (r_0 om p (energy q m1) (m2 * m2 - m1 * m1)).im ≠ 0 := by
    rw [r_0_eq]
    exact h.R0 p (by simp) (by simp) (by simp)
  refine ⟨?_, ?_, ?_⟩
  · have := quot_num_ne h (2 * q * p); rwa [add_comm] at this
  · have := quot_num_ne h (-(2 * q * p)); rwa [Complex.ofReal_neg, neg_add_eq_sub] at this
  · have := quot_mem_slit h (2 * q * p); rwa [add_comm, neg_add_eq_sub] at this

/- Concrete instances of the hypotheses. -/
example : InStrip (1 + Complex.I / 2) (energy 1 1) ∧ InStrip (1 + Complex.I / 2) 1 := by
  have : (1 : ℝ) ≤ energy 1 1 := by
    unfold energy energy_squared
    exact Real.one_le_sqrt.2 (by norm_num)
  refine ⟨⟨by norm_num, ?_⟩, by norm_num, ?_⟩ <;> norm_num [abs_of_pos] <;> linarith

example : (thermal.i_m_m_i 1 (2 : ℝ) 3 (1 : ℝ) (2 : ℝ) 1).im = 0 :=
  C37_thermal.1 1 2 3 1 2 1 one_pos two_ne_zero

end Qcd
