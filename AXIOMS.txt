# Axioms each theorem of MANIFEST.json depends on, as reported by Lean (collectAxioms).
Qcd.C06_default_method : Classical.choice, Quot.sound, propext
Qcd.C06_functions : Classical.choice, Quot.sound, propext
Qcd.C06_tolerance_ignored : Classical.choice, Quot.sound, propext
Qcd.C13_bounds : Classical.choice, Quot.sound, propext
Qcd.C13_monotone : Classical.choice, Quot.sound, propext
Qcd.C13_particle_hole : Classical.choice, Quot.sound, propext
Qcd.C13_particle_hole_complex : Classical.choice, Quot.sound, propext
Qcd.C14_consistency : Classical.choice, Quot.sound, propext
Qcd.C14_consistency_zero_temp : Classical.choice, Quot.sound, propext
Qcd.C15_bose_limit : Classical.choice, Quot.sound, propext
Qcd.C15_double_limit : Classical.choice, Quot.sound, propext
Qcd.C15_double_zero_temp_value : Classical.choice, Quot.sound, propext
Qcd.C15_fermi_limit : Classical.choice, Quot.sound, propext
Qcd.C15_fermi_surface : Classical.choice, Quot.sound, propext
Qcd.C16_bose : Classical.choice, Quot.sound, propext
Qcd.C16_bose_reflection : Classical.choice, Quot.sound, propext
Qcd.C17_dressing_inv_affine : Classical.choice, Quot.sound, propext
Qcd.C17_landau_gauge : Classical.choice, Quot.sound, propext
Qcd.C17_sep : Classical.choice, Quot.sound, propext
Qcd.C18_consistent : Classical.choice, Quot.sound, propext
Qcd.C19_loops : Classical.choice, Quot.sound, propext
Qcd.C19_qcd : Classical.choice, Quot.sound, propext
Qcd.C19_ym : Classical.choice, Quot.sound, propext
Qcd.C20_dressing_inv : Classical.choice, Quot.sound, propext
Qcd.C20_loops : Classical.choice, Quot.sound, propext
Qcd.C20_propagator : Classical.choice, Quot.sound, propext
Qcd.C21_loops : Classical.choice, Quot.sound, propext
Qcd.C21_qcd : Classical.choice, Quot.sound, propext
Qcd.C22_zero_momentum : Classical.choice, Quot.sound, propext
Qcd.C23_complex : Classical.choice, Quot.sound, propext
Qcd.C23_real : Classical.choice, Quot.sound, propext
Qcd.C24_ghost : Classical.choice, Quot.sound, propext
Qcd.C24_gluon : Classical.choice, Quot.sound, propext
Qcd.C24_loops : Classical.choice, Quot.sound, propext
Qcd.C25_loops : Classical.choice, Quot.sound, propext
Qcd.C25_qcd : Classical.choice, Quot.sound, propext
Qcd.C25_ratios : Classical.choice, Quot.sound, propext
Qcd.C26_loops : Classical.choice, Quot.sound, propext
Qcd.C26_qcd : Classical.choice, Quot.sound, propext
Qcd.C26_ym : Classical.choice, Quot.sound, propext
Qcd.C26_zero_undefined : Classical.choice, Quot.sound, propext
Qcd.C27_config : Classical.choice, Quot.sound, propext
Qcd.C27_global : Classical.choice, Quot.sound, propext
Qcd.C28_interfaces_agree : Classical.choice, Quot.sound, propext
Qcd.C29_additive : Classical.choice, Quot.sound, propext
Qcd.C29_additive_general : Classical.choice, Quot.sound, propext
Qcd.C29_additive_zero_matsubara : Classical.choice, Quot.sound, propext
Qcd.C29_additive_zero_momentum : Classical.choice, Quot.sound, propext
Qcd.C29_order : Classical.choice, Quot.sound, propext
Qcd.C29_order_general : Classical.choice, Quot.sound, propext
Qcd.C29_order_zero_matsubara : Classical.choice, Quot.sound, propext
Qcd.C29_order_zero_momentum : Classical.choice, Quot.sound, propext
Qcd.C29_split : Classical.choice, Quot.sound, propext
Qcd.C29_split_general : Classical.choice, Quot.sound, propext
Qcd.C29_split_zero_matsubara : Classical.choice, Quot.sound, propext
Qcd.C29_split_zero_momentum : Classical.choice, Quot.sound, propext
Qcd.C29_zero_entry : Classical.choice, Quot.sound, propext
Qcd.C29_zero_entry_general : Classical.choice, Quot.sound, propext
Qcd.C29_zero_entry_zero_matsubara : Classical.choice, Quot.sound, propext
Qcd.C29_zero_entry_zero_momentum : Classical.choice, Quot.sound, propext
Qcd.C30_globals_matter : Classical.choice, Quot.sound, propext
Qcd.C30_independent_of_globals : Classical.choice, Quot.sound, propext
Qcd.C31_reads_only_general : Classical.choice, Quot.sound, propext
Qcd.C31_reads_only_zero_matsubara : Classical.choice, Quot.sound, propext
Qcd.C31_reads_only_zero_momentum : Classical.choice, Quot.sound, propext
Qcd.C31_scaling_general : Classical.choice, Quot.sound, propext
Qcd.C31_scaling_zero_matsubara : Classical.choice, Quot.sound, propext
Qcd.C31_scaling_zero_momentum : Classical.choice, Quot.sound, propext
Qcd.C31_violation : Classical.choice, Quot.sound, propext
Qcd.C31_violation_reachable : Classical.choice, Quot.sound, propext
Qcd.C32_new : Classical.choice, Quot.sound, propext
Qcd.C32_stale : Classical.choice, Quot.sound, propext
Qcd.C32_stale_wrong : Classical.choice, Quot.sound, propext
Qcd.C33_ghost_thermal : Classical.choice, Quot.sound, propext
Qcd.C33_ghost_thermal_zero_momentum : Classical.choice, Quot.sound, propext
Qcd.C33_gluon_thermal : Classical.choice, Quot.sound, propext
Qcd.C33_gluon_thermal_zero_momentum : Classical.choice, Quot.sound, propext
Qcd.C33_thermal : Classical.choice, Quot.sound, propext
Qcd.C33_thermal_zero_matsubara : Classical.choice, Quot.sound, propext
Qcd.C33_thermal_zero_momentum : Classical.choice, Quot.sound, propext
Qcd.C34_thermal : Classical.choice, Quot.sound, propext
Qcd.C34_thermal_zero_matsubara : Classical.choice, Quot.sound, propext
Qcd.C34_thermal_zero_momentum : Classical.choice, Quot.sound, propext
Qcd.C35_thermal_same_mass : Classical.choice, Quot.sound, propext
Qcd.C35_thermal_second_mass_zero : Classical.choice, Quot.sound, propext
Qcd.C35_thermal_tadpoles : Classical.choice, Quot.sound, propext
Qcd.C35_thermal_zero_mass : Classical.choice, Quot.sound, propext
Qcd.C35_thermal_zero_matsubara_same_mass : Classical.choice, Quot.sound, propext
Qcd.C35_thermal_zero_matsubara_second_mass_zero : Classical.choice, Quot.sound, propext
Qcd.C35_thermal_zero_matsubara_zero_mass : Classical.choice, Quot.sound, propext
Qcd.C35_thermal_zero_momentum_same_mass : Classical.choice, Quot.sound, propext
Qcd.C35_thermal_zero_momentum_second_mass_zero : Classical.choice, Quot.sound, propext
Qcd.C35_thermal_zero_momentum_zero_mass : Classical.choice, Quot.sound, propext
Qcd.C36_frequency_ghost_thermal : Classical.choice, Quot.sound, propext
Qcd.C36_frequency_ghost_thermal_zero_momentum : Classical.choice, Quot.sound, propext
Qcd.C36_frequency_gluon_thermal : Classical.choice, Quot.sound, propext
Qcd.C36_frequency_gluon_thermal_zero_momentum : Classical.choice, Quot.sound, propext
Qcd.C36_frequency_thermal : Classical.choice, Quot.sound, propext
Qcd.C36_frequency_thermal_zero_momentum : Classical.choice, Quot.sound, propext
Qcd.C36_momentum_ghost_thermal : Classical.choice, Quot.sound, propext
Qcd.C36_momentum_ghost_thermal_zero_matsubara : Classical.choice, Quot.sound, propext
Qcd.C36_momentum_gluon_thermal : Classical.choice, Quot.sound, propext
Qcd.C36_momentum_gluon_thermal_zero_matsubara : Classical.choice, Quot.sound, propext
Qcd.C36_momentum_thermal : Classical.choice, Quot.sound, propext
Qcd.C36_momentum_thermal_zero_matsubara : Classical.choice, Quot.sound, propext
Qcd.C36_strip_of_real : Classical.choice, Quot.sound, propext
Qcd.C37_ghost_thermal : Classical.choice, Quot.sound, propext
Qcd.C37_ghost_thermal_zero_matsubara : Classical.choice, Quot.sound, propext
Qcd.C37_ghost_thermal_zero_momentum : Classical.choice, Quot.sound, propext
Qcd.C37_gluon_thermal : Classical.choice, Quot.sound, propext
Qcd.C37_gluon_thermal_zero_matsubara : Classical.choice, Quot.sound, propext
Qcd.C37_gluon_thermal_zero_momentum : Classical.choice, Quot.sound, propext
Qcd.C37_thermal : Classical.choice, Quot.sound, propext
Qcd.C37_thermal_zero_matsubara : Classical.choice, Quot.sound, propext
Qcd.C37_thermal_zero_momentum : Classical.choice, Quot.sound, propext
Qcd.C38_denominators : Classical.choice, Quot.sound, propext
Qcd.C38_strip : Classical.choice, Quot.sound, propext
Qcd.C38_tlog : Classical.choice, Quot.sound, propext
Qcd.C39_d_i_m_0_i : Classical.choice, Quot.sound, propext
Qcd.C39_d_i_m_0_l_i : Classical.choice, Quot.sound, propext
Qcd.C39_d_i_m_0_t_i : Classical.choice, Quot.sound, propext
Qcd.C39_d_i_m_m_i : Classical.choice, Quot.sound, propext
Qcd.C39_d_i_m_m_i_same_mass : Classical.choice, Quot.sound, propext
Qcd.C39_d_i_m_m_i_same_mass_total : Classical.choice, Quot.sound, propext
Qcd.C39_d_i_m_m_l_i : Classical.choice, Quot.sound, propext
Qcd.C39_d_i_m_m_l_i_same_mass : Classical.choice, Quot.sound, propext
Qcd.C39_d_i_m_m_l_i_same_mass_total : Classical.choice, Quot.sound, propext
Qcd.C39_d_i_m_m_t_i : Classical.choice, Quot.sound, propext
Qcd.C39_d_i_m_m_t_i_same_mass : Classical.choice, Quot.sound, propext
Qcd.C39_d_i_m_m_t_i_same_mass_total : Classical.choice, Quot.sound, propext
Qcd.C39_integrals_agree : Classical.choice, Quot.sound, propext
Qcd.C39_second_derivatives : Classical.choice, Quot.sound, propext
Qcd.C39_tadpoles : Classical.choice, Quot.sound, propext
Qcd.C39_zero_momentum_d_i_m_m_i : Classical.choice, Quot.sound, propext
Qcd.C39_zero_momentum_d_i_m_m_l_i : Classical.choice, Quot.sound, propext
Qcd.C39_zero_momentum_d_i_m_m_t_i : Classical.choice, Quot.sound, propext
Qcd.C40_d_i_m_m_i : Classical.choice, Quot.sound, propext
Qcd.C40_d_i_m_m_l_i : Classical.choice, Quot.sound, propext
Qcd.C40_d_i_m_m_t_i : Classical.choice, Quot.sound, propext
Qcd.C40_ghost_self_energy : Classical.choice, Quot.sound, propext
Qcd.C40_glue_l : Classical.choice, Quot.sound, propext
Qcd.C40_glue_t : Classical.choice, Quot.sound, propext
Qcd.C40_i_m_m_i : Classical.choice, Quot.sound, propext
Qcd.C40_i_m_m_l_i : Classical.choice, Quot.sound, propext
Qcd.C40_i_m_m_t_i : Classical.choice, Quot.sound, propext
Qcd.C40_quark_l : Classical.choice, Quot.sound, propext
Qcd.C40_quark_l_zero_temp : Classical.choice, Quot.sound, propext
Qcd.C40_quark_t : Classical.choice, Quot.sound, propext
Qcd.C40_quark_t_zero_temp : Classical.choice, Quot.sound, propext
Qcd.C40_regular_of_strip : Classical.choice, Quot.sound, propext
Qcd.C40_same_mass : Classical.choice, Quot.sound, propext
Qcd.C40_second_mass_zero : Classical.choice, Quot.sound, propext
Qcd.C40_zero_mass : Classical.choice, Quot.sound, propext
Qcd.C41_d_i_m_m_i : Classical.choice, Quot.sound, propext
Qcd.C41_d_i_m_m_l_i : Classical.choice, Quot.sound, propext
Qcd.C41_d_i_m_m_t_i : Classical.choice, Quot.sound, propext
Qcd.C41_ghost_self_energy : Classical.choice, Quot.sound, propext
Qcd.C41_glue_l : Classical.choice, Quot.sound, propext
Qcd.C41_glue_t : Classical.choice, Quot.sound, propext
Qcd.C41_i_m_m_i : Classical.choice, Quot.sound, propext
Qcd.C41_i_m_m_l_i : Classical.choice, Quot.sound, propext
Qcd.C41_i_m_m_t_i : Classical.choice, Quot.sound, propext
Qcd.C41_quark_l : Classical.choice, Quot.sound, propext
Qcd.C41_quark_l_zero_temp : Classical.choice, Quot.sound, propext
Qcd.C41_quark_t : Classical.choice, Quot.sound, propext
Qcd.C41_quark_t_zero_temp : Classical.choice, Quot.sound, propext
Qcd.C41_same_mass : Classical.choice, Quot.sound, propext
Qcd.C41_second_mass_zero : Classical.choice, Quot.sound, propext
Qcd.C41_zero_mass : Classical.choice, Quot.sound, propext
Qcd.C42_gluon_thermal_zero_momentum : Classical.choice, Quot.sound, propext
Qcd.C42_qcd_thermal_zero_momentum_gluon : Classical.choice, Quot.sound, propext
Qcd.C42_ym_thermal_zero_momentum_gluon : Classical.choice, Quot.sound, propext
Qcd.C43_qcd_thermal_gluon : Classical.choice, Quot.sound, propext
Qcd.C43_qcd_thermal_zero_matsubara_gluon : Classical.choice, Quot.sound, propext
Qcd.C43_qcd_thermal_zero_momentum_gluon : Classical.choice, Quot.sound, propext
Qcd.C43_ym_thermal_ghost : Classical.choice, Quot.sound, propext
Qcd.C43_ym_thermal_gluon : Classical.choice, Quot.sound, propext
Qcd.C43_ym_thermal_zero_matsubara_ghost : Classical.choice, Quot.sound, propext
Qcd.C43_ym_thermal_zero_matsubara_gluon : Classical.choice, Quot.sound, propext
Qcd.C43_ym_thermal_zero_momentum_ghost : Classical.choice, Quot.sound, propext
Qcd.C43_ym_thermal_zero_momentum_gluon : Classical.choice, Quot.sound, propext
Qcd.C44_interfaces_general_complex : Classical.choice, Quot.sound, propext
Qcd.C44_interfaces_general_real : Classical.choice, Quot.sound, propext
Qcd.C44_interfaces_zero_matsubara : Classical.choice, Quot.sound, propext
Qcd.C44_interfaces_zero_momentum : Classical.choice, Quot.sound, propext
Qcd.C44_no_fermions_general : Classical.choice, Quot.sound, propext
Qcd.C44_no_fermions_zero_matsubara : Classical.choice, Quot.sound, propext
Qcd.C44_no_fermions_zero_momentum : Classical.choice, Quot.sound, propext
Qcd.C44_no_fermions_zero_temp_general : Classical.choice, Quot.sound, propext
Qcd.C44_no_fermions_zero_temp_zero_matsubara : Classical.choice, Quot.sound, propext
Qcd.C44_no_fermions_zero_temp_zero_momentum : Classical.choice, Quot.sound, propext
Qcd.C44_no_quarks_general_complex : Classical.choice, Quot.sound, propext
Qcd.C44_no_quarks_general_real : Classical.choice, Quot.sound, propext
Qcd.C44_no_quarks_zero_matsubara : Classical.choice, Quot.sound, propext
Qcd.C44_no_quarks_zero_momentum : Classical.choice, Quot.sound, propext
Qcd.C44_zero_density_config_general_complex : Classical.choice, Quot.sound, propext
Qcd.C44_zero_density_config_general_real : Classical.choice, Quot.sound, propext
Qcd.C44_zero_density_config_zero_matsubara : Classical.choice, Quot.sound, propext
Qcd.C44_zero_density_config_zero_momentum : Classical.choice, Quot.sound, propext
Qcd.C44_zero_density_general : Classical.choice, Quot.sound, propext
Qcd.C44_zero_density_zero_matsubara : Classical.choice, Quot.sound, propext
Qcd.C44_zero_density_zero_momentum : Classical.choice, Quot.sound, propext
Qcd.C45_gluon_thermal : Classical.choice, Quot.sound, propext
Qcd.C45_gluon_thermal_zero_matsubara : Classical.choice, Quot.sound, propext
Qcd.C45_gluon_thermal_zero_momentum : Classical.choice, Quot.sound, propext
Qcd.C45_qcd_thermal_gluon : Classical.choice, Quot.sound, propext
Qcd.C45_qcd_thermal_zero_matsubara_gluon : Classical.choice, Quot.sound, propext
Qcd.C45_qcd_thermal_zero_momentum_gluon : Classical.choice, Quot.sound, propext
Qcd.C46_ghost_thermal_self_energy : Classical.choice, Quot.sound, propext
Qcd.C46_ghost_thermal_zero_matsubara_self_energy : Classical.choice, Quot.sound, propext
Qcd.C46_ghost_thermal_zero_momentum_self_energy : Classical.choice, Quot.sound, propext
Qcd.C46_gluon_thermal_polarization_glue_l : Classical.choice, Quot.sound, propext
Qcd.C46_gluon_thermal_polarization_glue_t : Classical.choice, Quot.sound, propext
Qcd.C46_gluon_thermal_polarization_quark_l : Classical.choice, Quot.sound, propext
Qcd.C46_gluon_thermal_polarization_quark_t : Classical.choice, Quot.sound, propext
Qcd.C46_gluon_thermal_zero_matsubara_polarization_glue_l : Classical.choice, Quot.sound, propext
Qcd.C46_gluon_thermal_zero_matsubara_polarization_glue_t : Classical.choice, Quot.sound, propext
Qcd.C46_gluon_thermal_zero_matsubara_polarization_quark_l : Classical.choice, Quot.sound, propext
Qcd.C46_gluon_thermal_zero_matsubara_polarization_quark_t : Classical.choice, Quot.sound, propext
Qcd.C46_gluon_thermal_zero_momentum_polarization_glue_l : Classical.choice, Quot.sound, propext
Qcd.C46_gluon_thermal_zero_momentum_polarization_glue_t : Classical.choice, Quot.sound, propext
Qcd.C46_gluon_thermal_zero_momentum_polarization_quark_l : Classical.choice, Quot.sound, propext
Qcd.C46_gluon_thermal_zero_momentum_polarization_quark_t : Classical.choice, Quot.sound, propext
Qcd.C46_integrable_cplx : Classical.choice, Quot.sound, propext
Qcd.C46_integrable_real : Classical.choice, Quot.sound, propext
Qcd.C47_below_threshold : Classical.choice, Quot.sound, propext
Qcd.C47_gluon_thermal_polarization_quark_l_zero_temp : Classical.choice, Quot.sound, propext
Qcd.C47_gluon_thermal_polarization_quark_t_zero_temp : Classical.choice, Quot.sound, propext
Qcd.C47_gluon_thermal_zero_matsubara_polarization_quark_l_zero_temp : Classical.choice, Quot.sound, propext
Qcd.C47_gluon_thermal_zero_matsubara_polarization_quark_t_zero_temp : Classical.choice, Quot.sound, propext
Qcd.C47_gluon_thermal_zero_momentum_polarization_quark_l_zero_temp : Classical.choice, Quot.sound, propext
Qcd.C47_gluon_thermal_zero_momentum_polarization_quark_t_zero_temp : Classical.choice, Quot.sound, propext
Qcd.C48_ghost_thermal_self_energy : Classical.choice, Quot.sound, propext
Qcd.C48_ghost_thermal_zero_matsubara_self_energy : Classical.choice, Quot.sound, propext
Qcd.C48_ghost_thermal_zero_momentum_self_energy : Classical.choice, Quot.sound, propext
Qcd.C48_gluon_thermal_polarization_glue_l : Classical.choice, Quot.sound, propext
Qcd.C48_gluon_thermal_polarization_glue_t : Classical.choice, Quot.sound, propext
Qcd.C48_gluon_thermal_polarization_quark_l : Classical.choice, Quot.sound, propext
Qcd.C48_gluon_thermal_polarization_quark_l_outside : Classical.choice, Quot.sound, propext
Qcd.C48_gluon_thermal_polarization_quark_t : Classical.choice, Quot.sound, propext
Qcd.C48_gluon_thermal_polarization_quark_t_outside : Classical.choice, Quot.sound, propext
Qcd.C48_gluon_thermal_zero_matsubara_polarization_glue_l : Classical.choice, Quot.sound, propext
Qcd.C48_gluon_thermal_zero_matsubara_polarization_glue_t : Classical.choice, Quot.sound, propext
Qcd.C48_gluon_thermal_zero_matsubara_polarization_quark_l : Classical.choice, Quot.sound, propext
Qcd.C48_gluon_thermal_zero_matsubara_polarization_quark_l_outside : Classical.choice, Quot.sound, propext
Qcd.C48_gluon_thermal_zero_matsubara_polarization_quark_t : Classical.choice, Quot.sound, propext
Qcd.C48_gluon_thermal_zero_matsubara_polarization_quark_t_outside : Classical.choice, Quot.sound, propext
Qcd.C48_gluon_thermal_zero_momentum_polarization_glue_l : Classical.choice, Quot.sound, propext
Qcd.C48_gluon_thermal_zero_momentum_polarization_glue_t : Classical.choice, Quot.sound, propext
Qcd.C48_gluon_thermal_zero_momentum_polarization_quark_l : Classical.choice, Quot.sound, propext
Qcd.C48_gluon_thermal_zero_momentum_polarization_quark_l_outside : Classical.choice, Quot.sound, propext
Qcd.C48_gluon_thermal_zero_momentum_polarization_quark_t : Classical.choice, Quot.sound, propext
Qcd.C48_gluon_thermal_zero_momentum_polarization_quark_t_outside : Classical.choice, Quot.sound, propext
Qcd.C49_ghost_thermal : Classical.choice, Quot.sound, propext
Qcd.C49_ghost_thermal_zero_matsubara : Classical.choice, Quot.sound, propext
Qcd.C49_ghost_thermal_zero_momentum : Classical.choice, Quot.sound, propext
Qcd.C49_gluon_thermal : Classical.choice, Quot.sound, propext
Qcd.C49_gluon_thermal_zero_matsubara : Classical.choice, Quot.sound, propext
Qcd.C49_gluon_thermal_zero_momentum : Classical.choice, Quot.sound, propext
Qcd.C49_thermal : Classical.choice, Quot.sound, propext
Qcd.C49_thermal_zero_matsubara : Classical.choice, Quot.sound, propext
Qcd.C49_thermal_zero_momentum : Classical.choice, Quot.sound, propext
Qcd.C50_colours : Classical.choice, Quot.sound, propext
Qcd.C50_converges : Classical.choice, Quot.sound, propext
Qcd.C50_odd : Classical.choice, Quot.sound, propext
Qcd.C50_sign : Classical.choice, Quot.sound, propext
Qcd.C50_strictMono : Classical.choice, Quot.sound, propext
Qcd.C50_zero : Classical.choice, Quot.sound, propext
Qcd.C51_chemical_potential_of_density : Classical.choice, Quot.sound, propext
Qcd.C51_density_of_chemical_potential : Classical.choice, Quot.sound, propext
Qcd.C51_density_threshold : Classical.choice, Quot.sound, propext
Qcd.C51_density_value : Classical.choice, Quot.sound, propext
Qcd.C51_fermi_momentum : Classical.choice, Quot.sound, propext
Qcd.C52_default : Classical.choice, Quot.sound, propext
Qcd.C52_no_tolerance : Classical.choice, Quot.sound, propext
Qcd.C52_sound : Classical.choice, Quot.sound, propext
Qcd.C52_unique : Classical.choice, Quot.sound, propext
Qcd.C52_zero : Classical.choice, Quot.sound, propext
Qcd.C60_new_mass_independent : Classical.choice, Quot.sound, propext
Qcd.C60_uv_matching : Classical.choice, Quot.sound, propext
Qcd.C61_feynman : Classical.choice, Quot.sound, propext
Qcd.C61_feynman_crossed : Classical.choice, Quot.sound, propext
Qcd.C61_sign : Classical.choice, Quot.sound, propext
Qcd.C62_i_0_0_i : Classical.choice, Quot.sound, propext
Qcd.C62_i_0_0_l_i : Classical.choice, Quot.sound, propext
Qcd.C62_i_0_0_t_i : Classical.choice, Quot.sound, propext
Qcd.C62_i_m_0_i : Classical.choice, Quot.sound, propext
Qcd.C62_i_m_0_l_i : Classical.choice, Quot.sound, propext
Qcd.C62_i_m_0_t_i : Classical.choice, Quot.sound, propext
Qcd.C62_i_m_m_i : Classical.choice, Quot.sound, propext
Qcd.C62_i_m_m_i_same_mass : Classical.choice, Quot.sound, propext
Qcd.C62_i_m_m_l_i : Classical.choice, Quot.sound, propext
Qcd.C62_i_m_m_l_i_same_mass : Classical.choice, Quot.sound, propext
Qcd.C62_i_m_m_t_i : Classical.choice, Quot.sound, propext
Qcd.C62_i_m_m_t_i_same_mass : Classical.choice, Quot.sound, propext
Qcd.C62_regular_real : Classical.choice, Quot.sound, propext
Qcd.C62_regular_strip : Classical.choice, Quot.sound, propext
Qcd.C62_regular_zero_matsubara : Classical.choice, Quot.sound, propext
Qcd.C62_tadpoles : Classical.choice, Quot.sound, propext
Qcd.C62_tadpoles_massless : Classical.choice, Quot.sound, propext
Qcd.C62_zero_matsubara_i_0_0_i : Classical.choice, Quot.sound, propext
Qcd.C62_zero_matsubara_i_0_0_l_i : Classical.choice, Quot.sound, propext
Qcd.C62_zero_matsubara_i_0_0_t_i : Classical.choice, Quot.sound, propext
Qcd.C62_zero_matsubara_i_m_0_i : Classical.choice, Quot.sound, propext
Qcd.C62_zero_matsubara_i_m_0_l_i : Classical.choice, Quot.sound, propext
Qcd.C62_zero_matsubara_i_m_0_t_i : Classical.choice, Quot.sound, propext
Qcd.C62_zero_matsubara_i_m_m_i : Classical.choice, Quot.sound, propext
Qcd.C62_zero_matsubara_i_m_m_i_same_mass : Classical.choice, Quot.sound, propext
Qcd.C62_zero_matsubara_i_m_m_l_i : Classical.choice, Quot.sound, propext
Qcd.C62_zero_matsubara_i_m_m_l_i_same_mass : Classical.choice, Quot.sound, propext
Qcd.C62_zero_matsubara_i_m_m_t_i : Classical.choice, Quot.sound, propext
Qcd.C62_zero_matsubara_i_m_m_t_i_same_mass : Classical.choice, Quot.sound, propext
Qcd.C62_zero_momentum_i_0_0_i : Classical.choice, Quot.sound, propext
Qcd.C62_zero_momentum_i_0_0_l_i : Classical.choice, Quot.sound, propext
Qcd.C62_zero_momentum_i_0_0_t_i : Classical.choice, Quot.sound, propext
Qcd.C62_zero_momentum_i_m_0_i : Classical.choice, Quot.sound, propext
Qcd.C62_zero_momentum_i_m_0_l_i : Classical.choice, Quot.sound, propext
Qcd.C62_zero_momentum_i_m_0_t_i : Classical.choice, Quot.sound, propext
Qcd.C62_zero_momentum_i_m_m_i : Classical.choice, Quot.sound, propext
Qcd.C62_zero_momentum_i_m_m_i_same_mass : Classical.choice, Quot.sound, propext
Qcd.C62_zero_momentum_i_m_m_l_i : Classical.choice, Quot.sound, propext
Qcd.C62_zero_momentum_i_m_m_l_i_same_mass : Classical.choice, Quot.sound, propext
Qcd.C62_zero_momentum_i_m_m_t_i : Classical.choice, Quot.sound, propext
Qcd.C62_zero_momentum_i_m_m_t_i_same_mass : Classical.choice, Quot.sound, propext
Qcd.C63_quark_l : Classical.choice, Quot.sound, propext
Qcd.C63_quark_l_zero_temp : Classical.choice, Quot.sound, propext
Qcd.C63_quark_t : Classical.choice, Quot.sound, propext
Qcd.C63_quark_t_zero_temp : Classical.choice, Quot.sound, propext
Qcd.C63_zero_matsubara_quark_l : Classical.choice, Quot.sound, propext
Qcd.C63_zero_matsubara_quark_l_zero_temp : Classical.choice, Quot.sound, propext
Qcd.C63_zero_matsubara_quark_t : Classical.choice, Quot.sound, propext
Qcd.C63_zero_matsubara_quark_t_zero_temp : Classical.choice, Quot.sound, propext
Qcd.C63_zero_momentum_quark_l : Classical.choice, Quot.sound, propext
Qcd.C63_zero_momentum_quark_l_zero_temp : Classical.choice, Quot.sound, propext
Qcd.C63_zero_momentum_quark_t : Classical.choice, Quot.sound, propext
Qcd.C63_zero_momentum_quark_t_zero_temp : Classical.choice, Quot.sound, propext
Qcd.C70_ghost_self_energy : Classical.choice, Quot.sound, propext
Qcd.C71_polarization_glue_l : Classical.choice, Quot.sound, propext
Qcd.C71_polarization_glue_t : Classical.choice, Quot.sound, propext
Qcd.C72_ghost_thermal_self_energy : Classical.choice, Quot.sound, propext
Qcd.C72_ghost_thermal_zero_momentum_self_energy : Classical.choice, Quot.sound, propext
Qcd.C72_gluon_thermal_polarization_glue_l : Classical.choice, Quot.sound, propext
Qcd.C72_gluon_thermal_polarization_glue_t : Classical.choice, Quot.sound, propext
Qcd.C72_gluon_thermal_polarization_quark_l : Classical.choice, Quot.sound, propext
Qcd.C72_gluon_thermal_polarization_quark_t : Classical.choice, Quot.sound, propext
Qcd.C72_gluon_thermal_zero_matsubara_polarization_glue_l : Classical.choice, Quot.sound, propext
Qcd.C72_gluon_thermal_zero_matsubara_polarization_glue_t : Classical.choice, Quot.sound, propext
Qcd.C72_gluon_thermal_zero_matsubara_polarization_quark_l : Classical.choice, Quot.sound, propext
Qcd.C72_gluon_thermal_zero_matsubara_polarization_quark_t : Classical.choice, Quot.sound, propext
Qcd.C72_gluon_thermal_zero_momentum_polarization_glue_l : Classical.choice, Quot.sound, propext
Qcd.C72_gluon_thermal_zero_momentum_polarization_glue_t : Classical.choice, Quot.sound, propext
Qcd.C72_gluon_thermal_zero_momentum_polarization_quark_l : Classical.choice, Quot.sound, propext
Qcd.C72_gluon_thermal_zero_momentum_polarization_quark_t : Classical.choice, Quot.sound, propext
Qcd.C72_qcd_thermal_gluon_dressing_l_inv : Classical.choice, Quot.sound, propext
Qcd.C72_qcd_thermal_gluon_dressing_l_inv_vacuum : Classical.choice, Quot.sound, propext
Qcd.C72_qcd_thermal_gluon_dressing_l_inv_w_field_config : Classical.choice, Quot.sound, propext
Qcd.C72_qcd_thermal_gluon_dressing_l_inv_w_field_config_vacuum : Classical.choice, Quot.sound, propext
Qcd.C72_qcd_thermal_gluon_dressing_t_inv : Classical.choice, Quot.sound, propext
Qcd.C72_qcd_thermal_gluon_dressing_t_inv_vacuum : Classical.choice, Quot.sound, propext
Qcd.C72_qcd_thermal_gluon_dressing_t_inv_w_field_config : Classical.choice, Quot.sound, propext
Qcd.C72_qcd_thermal_gluon_dressing_t_inv_w_field_config_vacuum : Classical.choice, Quot.sound, propext
Qcd.C72_qcd_thermal_gluon_propagator_l : Classical.choice, Quot.sound, propext
Qcd.C72_qcd_thermal_gluon_propagator_l_w_field_config : Classical.choice, Quot.sound, propext
Qcd.C72_qcd_thermal_gluon_propagator_t : Classical.choice, Quot.sound, propext
Qcd.C72_qcd_thermal_gluon_propagator_t_w_field_config : Classical.choice, Quot.sound, propext
Qcd.C72_qcd_thermal_zero_matsubara_gluon_dressing_l_inv : Classical.choice, Quot.sound, propext
Qcd.C72_qcd_thermal_zero_matsubara_gluon_dressing_l_inv_vacuum : Classical.choice, Quot.sound, propext
Qcd.C72_qcd_thermal_zero_matsubara_gluon_dressing_l_inv_w_field_config : Classical.choice, Quot.sound, propext
Qcd.C72_qcd_thermal_zero_matsubara_gluon_dressing_l_inv_w_field_config_vacuum : Classical.choice, Quot.sound, propext
Qcd.C72_qcd_thermal_zero_matsubara_gluon_dressing_t_inv : Classical.choice, Quot.sound, propext
Qcd.C72_qcd_thermal_zero_matsubara_gluon_dressing_t_inv_vacuum : Classical.choice, Quot.sound, propext
Qcd.C72_qcd_thermal_zero_matsubara_gluon_dressing_t_inv_w_field_config : Classical.choice, Quot.sound, propext
Qcd.C72_qcd_thermal_zero_matsubara_gluon_dressing_t_inv_w_field_config_vacuum : Classical.choice, Quot.sound, propext
Qcd.C72_qcd_thermal_zero_matsubara_gluon_propagator_l : Classical.choice, Quot.sound, propext
Qcd.C72_qcd_thermal_zero_matsubara_gluon_propagator_l_w_field_config : Classical.choice, Quot.sound, propext
Qcd.C72_qcd_thermal_zero_matsubara_gluon_propagator_t : Classical.choice, Quot.sound, propext
Qcd.C72_qcd_thermal_zero_matsubara_gluon_propagator_t_w_field_config : Classical.choice, Quot.sound, propext
Qcd.C72_qcd_thermal_zero_momentum_gluon_dressing_l_inv : Classical.choice, Quot.sound, propext
Qcd.C72_qcd_thermal_zero_momentum_gluon_dressing_l_inv_vacuum : Classical.choice, Quot.sound, propext
Qcd.C72_qcd_thermal_zero_momentum_gluon_dressing_l_inv_w_field_config : Classical.choice, Quot.sound, propext
Qcd.C72_qcd_thermal_zero_momentum_gluon_dressing_l_inv_w_field_config_vacuum : Classical.choice, Quot.sound, propext
Qcd.C72_qcd_thermal_zero_momentum_gluon_dressing_t_inv : Classical.choice, Quot.sound, propext
Qcd.C72_qcd_thermal_zero_momentum_gluon_dressing_t_inv_vacuum : Classical.choice, Quot.sound, propext
Qcd.C72_qcd_thermal_zero_momentum_gluon_dressing_t_inv_w_field_config : Classical.choice, Quot.sound, propext
Qcd.C72_qcd_thermal_zero_momentum_gluon_dressing_t_inv_w_field_config_vacuum : Classical.choice, Quot.sound, propext
Qcd.C72_qcd_thermal_zero_momentum_gluon_propagator_l : Classical.choice, Quot.sound, propext
Qcd.C72_qcd_thermal_zero_momentum_gluon_propagator_l_w_field_config : Classical.choice, Quot.sound, propext
Qcd.C72_qcd_thermal_zero_momentum_gluon_propagator_t : Classical.choice, Quot.sound, propext
Qcd.C72_qcd_thermal_zero_momentum_gluon_propagator_t_w_field_config : Classical.choice, Quot.sound, propext
Qcd.C72_ym_thermal_ghost_dressing_inv : Classical.choice, Quot.sound, propext
Qcd.C72_ym_thermal_ghost_propagator : Classical.choice, Quot.sound, propext
Qcd.C72_ym_thermal_gluon_dressing_l_inv : Classical.choice, Quot.sound, propext
Qcd.C72_ym_thermal_gluon_dressing_t_inv : Classical.choice, Quot.sound, propext
Qcd.C72_ym_thermal_gluon_propagator_l : Classical.choice, Quot.sound, propext
Qcd.C72_ym_thermal_gluon_propagator_t : Classical.choice, Quot.sound, propext
Qcd.C72_ym_thermal_zero_matsubara_gluon_dressing_l_inv : Classical.choice, Quot.sound, propext
Qcd.C72_ym_thermal_zero_matsubara_gluon_dressing_t_inv : Classical.choice, Quot.sound, propext
Qcd.C72_ym_thermal_zero_matsubara_gluon_propagator_l : Classical.choice, Quot.sound, propext
Qcd.C72_ym_thermal_zero_matsubara_gluon_propagator_t : Classical.choice, Quot.sound, propext
Qcd.C72_ym_thermal_zero_momentum_ghost_dressing_inv : Classical.choice, Quot.sound, propext
Qcd.C72_ym_thermal_zero_momentum_ghost_propagator : Classical.choice, Quot.sound, propext
Qcd.C72_ym_thermal_zero_momentum_gluon_dressing_l_inv : Classical.choice, Quot.sound, propext
Qcd.C72_ym_thermal_zero_momentum_gluon_dressing_t_inv : Classical.choice, Quot.sound, propext
Qcd.C72_ym_thermal_zero_momentum_gluon_propagator_l : Classical.choice, Quot.sound, propext
Qcd.C72_ym_thermal_zero_momentum_gluon_propagator_t : Classical.choice, Quot.sound, propext
Qcd.C73_ghost_thermal_self_energy : Classical.choice, Quot.sound, propext
Qcd.C73_ghost_thermal_zero_momentum_self_energy : Classical.choice, Quot.sound, propext
Qcd.C73_gluon_thermal_polarization_glue_l : Classical.choice, Quot.sound, propext
Qcd.C73_gluon_thermal_polarization_glue_t : Classical.choice, Quot.sound, propext
Qcd.C73_gluon_thermal_polarization_quark_l : Classical.choice, Quot.sound, propext
Qcd.C73_gluon_thermal_polarization_quark_l_zero_temp : Classical.choice, Quot.sound, propext
Qcd.C73_gluon_thermal_polarization_quark_t : Classical.choice, Quot.sound, propext
Qcd.C73_gluon_thermal_polarization_quark_t_zero_temp : Classical.choice, Quot.sound, propext
Qcd.C73_gluon_thermal_zero_matsubara_polarization_glue_l : Classical.choice, Quot.sound, propext
Qcd.C73_gluon_thermal_zero_matsubara_polarization_glue_t : Classical.choice, Quot.sound, propext
Qcd.C73_gluon_thermal_zero_matsubara_polarization_quark_l : Classical.choice, Quot.sound, propext
Qcd.C73_gluon_thermal_zero_matsubara_polarization_quark_t : Classical.choice, Quot.sound, propext
Qcd.C73_gluon_thermal_zero_momentum_polarization_glue_l : Classical.choice, Quot.sound, propext
Qcd.C73_gluon_thermal_zero_momentum_polarization_glue_t : Classical.choice, Quot.sound, propext
Qcd.C73_gluon_thermal_zero_momentum_polarization_quark_l : Classical.choice, Quot.sound, propext
Qcd.C73_gluon_thermal_zero_momentum_polarization_quark_l_zero_temp : Classical.choice, Quot.sound, propext
Qcd.C73_gluon_thermal_zero_momentum_polarization_quark_t : Classical.choice, Quot.sound, propext
Qcd.C73_gluon_thermal_zero_momentum_polarization_quark_t_zero_temp : Classical.choice, Quot.sound, propext
Qcd.C74_not_integrable : Classical.choice, Quot.sound, propext
Qcd.C74_not_integrable_compactified : Classical.choice, Quot.sound, propext
Qcd.C74_pole : Classical.choice, Quot.sound, propext
Qcd.C75_debye : Classical.choice, Quot.sound, propext
Qcd.C75_no_magnetic_mass : Classical.choice, Quot.sound, propext
Qcd.C75_quark_l : Classical.choice, Quot.sound, propext
Qcd.C75_quark_l_fixed_mu : Classical.choice, Quot.sound, propext
Qcd.C75_quark_l_zero_matsubara : Classical.choice, Quot.sound, propext
Qcd.C75_quark_l_zero_momentum : Classical.choice, Quot.sound, propext
Qcd.C75_quark_t : Classical.choice, Quot.sound, propext
Qcd.C75_quark_t_fixed_mu : Classical.choice, Quot.sound, propext
Qcd.C75_quark_t_zero_matsubara : Classical.choice, Quot.sound, propext
Qcd.C75_quark_t_zero_momentum : Classical.choice, Quot.sound, propext
Qcd.C79_compute : Classical.choice, Quot.sound, propext
Qcd.C79_process : Classical.choice, Quot.sound, propext
Qcd.C79_process_rejected : Classical.choice, Quot.sound, propext
Qcd.C79_set : Classical.choice, Quot.sound, propext
Qcd.C79_symbols_distinct : Classical.choice, Quot.sound, propext
Qcd.C80_real_complex : Classical.choice, Quot.sound, propext
Qcd.C81_ghost_self_energy : Classical.choice, Quot.sound, propext
Qcd.C81_i_0_0_i : Classical.choice, Quot.sound, propext
Qcd.C81_i_0_0_l_i : Classical.choice, Quot.sound, propext
Qcd.C81_i_0_0_t_i : Classical.choice, Quot.sound, propext
Qcd.C81_i_m_0_i : Classical.choice, Quot.sound, propext
Qcd.C81_i_m_0_l_i : Classical.choice, Quot.sound, propext
Qcd.C81_i_m_0_t_i : Classical.choice, Quot.sound, propext
Qcd.C81_i_m_m_i : Classical.choice, Quot.sound, propext
Qcd.C81_i_m_m_i_same_mass : Classical.choice, Quot.sound, propext
Qcd.C81_i_m_m_l_i : Classical.choice, Quot.sound, propext
Qcd.C81_i_m_m_l_i_same_mass : Classical.choice, Quot.sound, propext
Qcd.C81_i_m_m_t_i : Classical.choice, Quot.sound, propext
Qcd.C81_i_m_m_t_i_same_mass : Classical.choice, Quot.sound, propext
Qcd.C81_polarization_l : Classical.choice, Quot.sound, propext
Qcd.C81_polarization_t : Classical.choice, Quot.sound, propext
Qcd.C81_tadpoles : Classical.choice, Quot.sound, propext
Qcd.C81_zero_momentum_i_0_0_i : Classical.choice, Quot.sound, propext
Qcd.C81_zero_momentum_i_0_0_l_i : Classical.choice, Quot.sound, propext
Qcd.C81_zero_momentum_i_0_0_t_i : Classical.choice, Quot.sound, propext
Qcd.C81_zero_momentum_i_m_0_i : Classical.choice, Quot.sound, propext
Qcd.C81_zero_momentum_i_m_0_l_i : Classical.choice, Quot.sound, propext
Qcd.C81_zero_momentum_i_m_0_t_i : Classical.choice, Quot.sound, propext
Qcd.C81_zero_momentum_i_m_m_i : Classical.choice, Quot.sound, propext
Qcd.C81_zero_momentum_i_m_m_i_same_mass : Classical.choice, Quot.sound, propext
Qcd.C81_zero_momentum_i_m_m_l_i : Classical.choice, Quot.sound, propext
Qcd.C81_zero_momentum_i_m_m_l_i_same_mass : Classical.choice, Quot.sound, propext
Qcd.C81_zero_momentum_i_m_m_t_i : Classical.choice, Quot.sound, propext
Qcd.C81_zero_momentum_i_m_m_t_i_same_mass : Classical.choice, Quot.sound, propext
Qcd.C82_d2_j_m_i : Classical.choice, Quot.sound, propext
Qcd.C82_d2_j_m_l_i : Classical.choice, Quot.sound, propext
Qcd.C82_d2_j_m_t_i : Classical.choice, Quot.sound, propext
Qcd.C82_d_i_m_0_i : Classical.choice, Quot.sound, propext
Qcd.C82_d_i_m_0_l_i : Classical.choice, Quot.sound, propext
Qcd.C82_d_i_m_0_t_i : Classical.choice, Quot.sound, propext
Qcd.C82_d_i_m_m_i_same_mass : Classical.choice, Quot.sound, propext
Qcd.C82_d_i_m_m_l_i_same_mass : Classical.choice, Quot.sound, propext
Qcd.C82_d_i_m_m_t_i_same_mass : Classical.choice, Quot.sound, propext
Qcd.C82_d_j_m_i : Classical.choice, Quot.sound, propext
Qcd.C82_d_j_m_l_i : Classical.choice, Quot.sound, propext
Qcd.C82_d_j_m_t_i : Classical.choice, Quot.sound, propext
Qcd.C83_ghost_self_energy : Classical.choice, Quot.sound, propext
Qcd.C83_polarization_glue_l : Classical.choice, Quot.sound, propext
Qcd.C83_polarization_glue_t : Classical.choice, Quot.sound, propext
Qcd.C84_quark_l : Classical.choice, Quot.sound, propext
Qcd.C84_quark_l_zero_temp : Classical.choice, Quot.sound, propext
Qcd.C84_quark_t : Classical.choice, Quot.sound, propext
Qcd.C84_quark_t_zero_temp : Classical.choice, Quot.sound, propext
Qcd.C84_zero_momentum_quark_l : Classical.choice, Quot.sound, propext
Qcd.C84_zero_momentum_quark_l_zero_temp : Classical.choice, Quot.sound, propext
Qcd.C84_zero_momentum_quark_t : Classical.choice, Quot.sound, propext
Qcd.C84_zero_momentum_quark_t_zero_temp : Classical.choice, Quot.sound, propext
Qcd.C85_ghost_thermal : Classical.choice, Quot.sound, propext
Qcd.C85_ghost_vacuum : Classical.choice, Quot.sound, propext
Qcd.C86_ghost_vacuum : Classical.choice, Quot.sound, propext
Qcd.C86_gluon_thermal : Classical.choice, Quot.sound, propext
Qcd.C86_gluon_vacuum : Classical.choice, Quot.sound, propext
Qcd.C86_unique : Classical.choice, Quot.sound, propext
Qcd.C87_crossed_quark_loop : Classical.choice, Quot.sound, propext
Qcd.C87_insertion : Classical.choice, Quot.sound, propext
Qcd.C87_quark_loop : Classical.choice, Quot.sound, propext
Qcd.C87_unique : Classical.choice, Quot.sound, propext
Qcd.C88_thermal : Classical.choice, Quot.sound, propext
Qcd.C88_thermal_config : Classical.choice, Quot.sound, propext
Qcd.C88_vacuum : Classical.choice, Quot.sound, propext
Qcd.C88_vacuum_config : Classical.choice, Quot.sound, propext
Qcd.C88_zero_temp : Classical.choice, Quot.sound, propext
Qcd.C88_zero_temp_config : Classical.choice, Quot.sound, propext
Qcd.C89_ghost_vacuum : Classical.choice, Quot.sound, propext
Qcd.C89_gluon_vacuum : Classical.choice, Quot.sound, propext
Qcd.C89_unique : Classical.choice, Quot.sound, propext
Qcd.C89_vacuum : Classical.choice, Quot.sound, propext
Qcd.C89_vacuum_config : Classical.choice, Quot.sound, propext
Qcd.C90_d_i_m_0_i : Classical.choice, Quot.sound, propext
Qcd.C90_d_i_m_0_l_i : Classical.choice, Quot.sound, propext
Qcd.C90_d_i_m_0_t_i : Classical.choice, Quot.sound, propext
Qcd.C90_d_i_m_m_i_same_mass : Classical.choice, Quot.sound, propext
Qcd.C90_d_i_m_m_l_i_same_mass : Classical.choice, Quot.sound, propext
Qcd.C90_d_i_m_m_t_i_same_mass : Classical.choice, Quot.sound, propext
Qcd.C90_ghost_self_energy : Classical.choice, Quot.sound, propext
Qcd.C90_ghost_thermal : Classical.choice, Quot.sound, propext
Qcd.C90_gluon_thermal : Classical.choice, Quot.sound, propext
Qcd.C90_polarization_glue_l : Classical.choice, Quot.sound, propext
Qcd.C90_polarization_glue_t : Classical.choice, Quot.sound, propext
Qcd.C90_qcd_gluon : Classical.choice, Quot.sound, propext
Qcd.C90_qcd_gluon_config : Classical.choice, Quot.sound, propext
Qcd.C91_static_quark_l : Classical.choice, Quot.sound, propext
Qcd.C91_static_quark_l_zero_temp : Classical.choice, Quot.sound, propext
Qcd.C91_static_quark_t : Classical.choice, Quot.sound, propext
Qcd.C91_static_quark_t_zero_temp : Classical.choice, Quot.sound, propext
Qcd.C93_dressing_inv_field_config_analytic : Classical.choice, Quot.sound, propext
Qcd.C93_dressing_inv_field_config_symmetric : Classical.choice, Quot.sound, propext
Qcd.C93_dressing_inv_field_config_zero_temp_analytic : Classical.choice, Quot.sound, propext
Qcd.C93_dressing_inv_field_config_zero_temp_symmetric : Classical.choice, Quot.sound, propext
Qcd.C93_dressing_inv_qcd_analytic : Classical.choice, Quot.sound, propext
Qcd.C93_dressing_inv_qcd_symmetric : Classical.choice, Quot.sound, propext
Qcd.C93_dressing_inv_qcd_zero_temp_analytic : Classical.choice, Quot.sound, propext
Qcd.C93_dressing_inv_qcd_zero_temp_symmetric : Classical.choice, Quot.sound, propext
Qcd.C93_dressing_inv_ym_analytic : Classical.choice, Quot.sound, propext
Qcd.C93_dressing_inv_ym_symmetric : Classical.choice, Quot.sound, propext
Qcd.C93_exact_integrator : Classical.choice, Quot.sound, propext
Qcd.C93_propagators_field_config_analytic : Classical.choice, Quot.sound, propext
Qcd.C93_propagators_field_config_symmetric : Classical.choice, Quot.sound, propext
Qcd.C93_propagators_field_config_zero_temp_analytic : Classical.choice, Quot.sound, propext
Qcd.C93_propagators_field_config_zero_temp_symmetric : Classical.choice, Quot.sound, propext
Qcd.C93_propagators_qcd_analytic : Classical.choice, Quot.sound, propext
Qcd.C93_propagators_qcd_symmetric : Classical.choice, Quot.sound, propext
Qcd.C93_propagators_qcd_zero_temp_analytic : Classical.choice, Quot.sound, propext
Qcd.C93_propagators_qcd_zero_temp_symmetric : Classical.choice, Quot.sound, propext
Qcd.C93_propagators_ym_analytic : Classical.choice, Quot.sound, propext
Qcd.C93_propagators_ym_symmetric : Classical.choice, Quot.sound, propext
Qcd.C93_self_energies_analytic : Classical.choice, Quot.sound, propext
Qcd.C93_self_energies_symmetric : Classical.choice, Quot.sound, propext
Qcd.C93_self_energies_zero_momentum_analytic : Classical.choice, Quot.sound, propext
Qcd.C93_self_energies_zero_momentum_symmetric : Classical.choice, Quot.sound, propext
Qcd.C94_program : Classical.choice, Quot.sound, propext
Qcd.C94_thermal : Classical.choice, Quot.sound, propext
Qcd.C94_thermal_residue : Classical.choice, Quot.sound, propext
Qcd.C94_vacuum : Classical.choice, Quot.sound, propext
Qcd.C94_vacuum_residue : Classical.choice, Quot.sound, propext
Qcd.C95_fermion : Classical.choice, Quot.sound, propext
Qcd.C95_formulas : Classical.choice, Quot.sound, propext
Qcd.C95_imaginary : Classical.choice, Quot.sound, propext
Qcd.C95_limit : Classical.choice, Quot.sound, propext
Qcd.C95_positive : Classical.choice, Quot.sound, propext
Qcd.C95_program : Classical.choice, Quot.sound, propext
Qcd.C95_trace : Classical.choice, Quot.sound, propext
Qcd.C96_files : Classical.choice, Quot.sound, propext
Qcd.C96_normalisation : Classical.choice, Quot.sound, propext
Qcd.C96_plots : Classical.choice, Quot.sound, propext
Qcd.C96_real : Classical.choice, Quot.sound, propext
Qcd.C97_entry_points_field_config : Classical.choice, Quot.sound, propext
Qcd.C97_entry_points_field_config_zero_temp : Classical.choice, Quot.sound, propext
Qcd.C97_entry_points_qcd : Classical.choice, Quot.sound, propext
Qcd.C97_entry_points_qcd_zero_temp : Classical.choice, Quot.sound, propext
Qcd.C97_entry_points_ym : Classical.choice, Quot.sound, propext
Qcd.C97_real_field_config : Classical.choice, Quot.sound, propext
Qcd.C97_real_field_config_zero_temp : Classical.choice, Quot.sound, propext
Qcd.C97_real_qcd : Classical.choice, Quot.sound, propext
Qcd.C97_real_qcd_zero_temp : Classical.choice, Quot.sound, propext
Qcd.C97_real_ym : Classical.choice, Quot.sound, propext
Qcd.C98_ghost : Classical.choice, Quot.sound, propext
Qcd.C98_ghost_dressing : Classical.choice, Quot.sound, propext
Qcd.C98_glue_l : Classical.choice, Quot.sound, propext
Qcd.C98_glue_l_zero_matsubara : Classical.choice, Quot.sound, propext
Qcd.C98_glue_t : Classical.choice, Quot.sound, propext
Qcd.C98_glue_t_zero_matsubara : Classical.choice, Quot.sound, propext
Qcd.C98_htl_l_pos : Classical.choice, Quot.sound, propext
Qcd.C98_htl_t_pos : Classical.choice, Quot.sound, propext
Qcd.C98_qcd_propagator_l : Classical.choice, Quot.sound, propext
Qcd.C98_qcd_propagator_l_fixed_mu : Classical.choice, Quot.sound, propext
Qcd.C98_qcd_propagator_l_w_field_config : Classical.choice, Quot.sound, propext
Qcd.C98_qcd_propagator_t : Classical.choice, Quot.sound, propext
Qcd.C98_qcd_propagator_t_fixed_mu : Classical.choice, Quot.sound, propext
Qcd.C98_qcd_propagator_t_w_field_config : Classical.choice, Quot.sound, propext
Qcd.C98_qcd_static_propagator_l : Classical.choice, Quot.sound, propext
Qcd.C98_qcd_static_propagator_t : Classical.choice, Quot.sound, propext
Qcd.C98_ym_propagator_l : Classical.choice, Quot.sound, propext
Qcd.C98_ym_propagator_t : Classical.choice, Quot.sound, propext
Qcd.C98_ym_static_propagator_l : Classical.choice, Quot.sound, propext
Qcd.C98_ym_static_propagator_t : Classical.choice, Quot.sound, propext
Qcd.C99_qcd_propagator_l : Classical.choice, Quot.sound, propext
Qcd.C99_qcd_propagator_l_w_field_config : Classical.choice, Quot.sound, propext
Qcd.C99_qcd_propagator_l_zero_temp : Classical.choice, Quot.sound, propext
Qcd.C99_qcd_propagator_t : Classical.choice, Quot.sound, propext
Qcd.C99_qcd_propagator_t_w_field_config : Classical.choice, Quot.sound, propext
Qcd.C99_qcd_propagator_t_zero_temp : Classical.choice, Quot.sound, propext
Qcd.C99_quark_l : Classical.choice, Quot.sound, propext
Qcd.C99_quark_l_zero_momentum : Classical.choice, Quot.sound, propext
Qcd.C99_quark_l_zero_momentum_zero_temp : Classical.choice, Quot.sound, propext
Qcd.C99_quark_l_zero_temp : Classical.choice, Quot.sound, propext
Qcd.C99_quark_t : Classical.choice, Quot.sound, propext
Qcd.C99_quark_t_zero_momentum : Classical.choice, Quot.sound, propext
Qcd.C99_quark_t_zero_momentum_zero_temp : Classical.choice, Quot.sound, propext
Qcd.C99_quark_t_zero_temp : Classical.choice, Quot.sound, propext
Qcd.C100_agreement : Classical.choice, Quot.sound, propext
Qcd.C100_constant : Classical.choice, Quot.sound, propext
Qcd.C100_high_density : Classical.choice, Quot.sound, propext
Qcd.C100_high_temperature : Classical.choice, Quot.sound, propext
Qcd.C100_main : Classical.choice, Quot.sound, propext
Qcd.C100_plots : Classical.choice, Quot.sound, propext
Qcd.C100_test : Classical.choice, Quot.sound, propext
Qcd.C101_chemical_potential_accuracy : Classical.choice, Quot.sound, propext
Qcd.C101_chemical_potential_bracket : Classical.choice, Quot.sound, propext
Qcd.C101_chemical_potential_exists : Classical.choice, Quot.sound, propext
Qcd.C101_chemical_potential_low_temperature : Classical.choice, Quot.sound, propext
Qcd.C101_continuous : Classical.choice, Quot.sound, propext
Qcd.C101_high_density : Classical.choice, Quot.sound, propext
Qcd.C101_high_temperature : Classical.choice, Quot.sound, propext
Qcd.C101_low_temperature : Classical.choice, Quot.sound, propext
Qcd.C101_massless : Classical.choice, Quot.sound, propext
Qcd.C101_units : Classical.choice, Quot.sound, propext
Qcd.C102_chemical_potential_constants : Classical.choice, Quot.sound, propext
Qcd.C102_chemical_potential_ends : Classical.choice, Quot.sound, propext
Qcd.C102_chemical_potential_plots : Classical.choice, Quot.sound, propext
Qcd.C102_density_curves : Classical.choice, Quot.sound, propext
Qcd.C102_density_increasing : Classical.choice, Quot.sound, propext
Qcd.C102_density_plots : Classical.choice, Quot.sound, propext
Qcd.C102_density_symmetry : Classical.choice, Quot.sound, propext
Qcd.C103_integrand : Classical.choice, Quot.sound, propext
Qcd.C103_integrand_low_temperature : Classical.choice, Quot.sound, propext
Qcd.C103_labels : Classical.choice, Quot.sound, propext
Qcd.C103_polarization : Classical.choice, Quot.sound, propext
Qcd.C103_polarization_low_temperature : Classical.choice, Quot.sound, propext
Qcd.C103_propagator : Classical.choice, Quot.sound, propext
Qcd.C103_propagator_low_temperature : Classical.choice, Quot.sound, propext
Qcd.C103_quark_polarization : Classical.choice, Quot.sound, propext
Qcd.C104_constants : Classical.choice, Quot.sound, propext
Qcd.C104_files : Classical.choice, Quot.sound, propext
Qcd.C104_no_quarks : Classical.choice, Quot.sound, propext
Qcd.C104_plot : Classical.choice, Quot.sound, propext
Qcd.C104_shift : Classical.choice, Quot.sound, propext
Qcd.C105_expansions : Classical.choice, Quot.sound, propext
Qcd.C105_ghost : Classical.choice, Quot.sound, propext
Qcd.C105_glue : Classical.choice, Quot.sound, propext
Qcd.C105_glue_zero_momentum : Classical.choice, Quot.sound, propext
Qcd.C105_integrals : Classical.choice, Quot.sound, propext
Qcd.C105_integrals_derivative : Classical.choice, Quot.sound, propext
Qcd.C105_integrals_derivative_l : Classical.choice, Quot.sound, propext
Qcd.C105_logarithms : Classical.choice, Quot.sound, propext
Qcd.C105_logarithms_masses : Classical.choice, Quot.sound, propext
Qcd.C105_massless_tadpole : Classical.choice, Quot.sound, propext
Qcd.C105_quark : Classical.choice, Quot.sound, propext
Qcd.C105_tadpoles : Classical.choice, Quot.sound, propext
Qcd.C105_vacuum : Classical.choice, Quot.sound, propext
Qcd.C105_vacuum_dressing : Classical.choice, Quot.sound, propext
Qcd.C105_vacuum_real : Classical.choice, Quot.sound, propext
Qcd.C105_zero_frequency : Classical.choice, Quot.sound, propext
Qcd.C105_zero_momentum : Classical.choice, Quot.sound, propext
Qcd.C106_conversion : Classical.choice, Quot.sound, propext
Qcd.C106_conversion_other : Classical.choice, Quot.sound, propext
Qcd.C106_conversion_thermal : Classical.choice, Quot.sound, propext
Qcd.C106_wrappers : Classical.choice, Quot.sound, propext
Qcd.C106_wrappers_real : Classical.choice, Quot.sound, propext
Qcd.C107_ghost : Classical.choice, Quot.sound, propext
Qcd.C107_ghost_function : Classical.choice, Quot.sound, propext
Qcd.C107_gluon : Classical.choice, Quot.sound, propext
Qcd.C107_gluon_function : Classical.choice, Quot.sound, propext
Qcd.C107_gluon_poles : Classical.choice, Quot.sound, propext
Qcd.C107_qcd : Classical.choice, Quot.sound, propext
Qcd.C107_quark_function : Classical.choice, Quot.sound, propext
Qcd.C108_diagrams : Classical.choice, Quot.sound, propext
Qcd.C108_parts : Classical.choice, Quot.sound, propext
Qcd.C108_tadpoles : Classical.choice, Quot.sound, propext
Qcd.C108_zero_matsubara_masses : Classical.choice, Quot.sound, propext
Qcd.C108_zero_matsubara_parts : Classical.choice, Quot.sound, propext
Qcd.C108_zero_matsubara_poles : Classical.choice, Quot.sound, propext
Qcd.C108_zero_matsubara_quark_poles : Classical.choice, Quot.sound, propext
Qcd.C108_zero_matsubara_same_mass : Classical.choice, Quot.sound, propext
Qcd.C108_zero_matsubara_undefined : Classical.choice, Quot.sound, propext
Qcd.C108_zero_matsubara_zero_mass : Classical.choice, Quot.sound, propext
Qcd.C108_zero_momentum_diagrams : Classical.choice, Quot.sound, propext
Qcd.C108_zero_momentum_parts : Classical.choice, Quot.sound, propext
Qcd.C108_zero_momentum_undefined : Classical.choice, Quot.sound, propext
Qcd.C109_integrals : Classical.choice, Quot.sound, propext
Qcd.C109_massless_quark_undefined : Classical.choice, Quot.sound, propext
Qcd.C109_qcd_config : Classical.choice, Quot.sound, propext
Qcd.C109_qcd_config_zero_temp : Classical.choice, Quot.sound, propext
Qcd.C109_qcd_gluon : Classical.choice, Quot.sound, propext
Qcd.C109_qcd_gluon_zero_temp : Classical.choice, Quot.sound, propext
Qcd.C109_qcd_zero_matsubara_config : Classical.choice, Quot.sound, propext
Qcd.C109_qcd_zero_matsubara_config_zero_temp : Classical.choice, Quot.sound, propext
Qcd.C109_qcd_zero_matsubara_gluon : Classical.choice, Quot.sound, propext
Qcd.C109_qcd_zero_matsubara_gluon_zero_temp : Classical.choice, Quot.sound, propext
Qcd.C109_qcd_zero_momentum_config : Classical.choice, Quot.sound, propext
Qcd.C109_qcd_zero_momentum_config_zero_temp : Classical.choice, Quot.sound, propext
Qcd.C109_qcd_zero_momentum_gluon : Classical.choice, Quot.sound, propext
Qcd.C109_qcd_zero_momentum_gluon_zero_temp : Classical.choice, Quot.sound, propext
Qcd.C109_threshold_undefined : Classical.choice, Quot.sound, propext
Qcd.C109_vacuum_config : Classical.choice, Quot.sound, propext
Qcd.C109_vacuum_loops : Classical.choice, Quot.sound, propext
Qcd.C109_vacuum_qcd : Classical.choice, Quot.sound, propext
Qcd.C109_vacuum_ym : Classical.choice, Quot.sound, propext
Qcd.C109_ym_ghost : Classical.choice, Quot.sound, propext
Qcd.C109_ym_gluon : Classical.choice, Quot.sound, propext
Qcd.C109_ym_zero_matsubara_gluon : Classical.choice, Quot.sound, propext
Qcd.C109_ym_zero_momentum : Classical.choice, Quot.sound, propext
Qcd.C109_zero_matsubara_ghost : Classical.choice, Quot.sound, propext
Qcd.C109_zero_matsubara_ghost_at_two : Classical.choice, Quot.sound, propext
Qcd.C109_zero_matsubara_ghost_undefined : Classical.choice, Quot.sound, propext
Qcd.C109_zero_matsubara_integrals : Classical.choice, Quot.sound, propext
Qcd.C109_zero_momentum_integrals : Classical.choice, Quot.sound, propext
Qcd.C111_binary64_fixed : Classical.choice, Quot.sound, propext
Qcd.C111_binary64_nearest : Classical.choice, Quot.sound, propext
Qcd.C111_binary64_overflow : Classical.choice, Quot.sound, propext
Qcd.C111_binary64_ties : Classical.choice, Quot.sound, propext
Qcd.C111_bose : Classical.choice, Quot.sound, propext
Qcd.C111_bose_infinite : Classical.choice, Quot.sound, propext
Qcd.C111_bose_small_energy : Classical.choice, Quot.sound, propext
Qcd.C111_bose_zero_chempot : Classical.choice, Quot.sound, propext
Qcd.C111_energy : Classical.choice, Quot.sound, propext
Qcd.C111_energy_even : Classical.choice, Quot.sound, propext
Qcd.C111_energy_mono : Classical.choice, Quot.sound, propext
Qcd.C111_exact : Classical.choice, Quot.sound, propext
Qcd.C111_fermi_double_even : Classical.choice, Quot.sound, propext
Qcd.C111_fermi_double_range : Classical.choice, Quot.sound, propext
Qcd.C111_fermi_momentum_above : Classical.choice, Quot.sound, propext
Qcd.C111_fermi_momentum_nan_iff : Classical.choice, Quot.sound, propext
Qcd.C111_fermi_momentum_overflow : Classical.choice, Quot.sound, propext
Qcd.C111_fermi_momentum_tenth : Classical.choice, Quot.sound, propext
Qcd.C111_fermi_momentum_threshold : Classical.choice, Quot.sound, propext
Qcd.C111_fermi_mono : Classical.choice, Quot.sound, propext
Qcd.C111_fermi_range : Classical.choice, Quot.sound, propext
Qcd.C111_fermi_zero_chempot : Classical.choice, Quot.sound, propext
Qcd.C111_fermi_zero_temp : Classical.choice, Quot.sound, propext
Qcd.C111_nan : Classical.choice, Quot.sound, propext
Qcd.C111_operations : Classical.choice, Quot.sound, propext
Qcd.C111_special : Classical.choice, Quot.sound, propext
Qcd.C112_binary64 : Classical.choice, Quot.sound, propext
Qcd.C112_bose : Classical.choice, Quot.sound, propext
Qcd.C112_bose_f64 : Classical.choice, Quot.sound, propext
Qcd.C112_energy : Classical.choice, Quot.sound, propext
Qcd.C112_energy_f64 : Classical.choice, Quot.sound, propext
Qcd.C112_fermi : Classical.choice, Quot.sound, propext
Qcd.C112_fermi_f64 : Classical.choice, Quot.sound, propext
Qcd.C112_fermi_zero_chempot : Classical.choice, Quot.sound, propext
Qcd.C113_complex : Classical.choice, Quot.sound, propext
Qcd.C113_points : Classical.choice, Quot.sound, propext
Qcd.C113_real : Classical.choice, Quot.sound, propext
Qcd.C113_spectral : Classical.choice, Quot.sound, propext
Qcd.C113_units : Classical.choice, Quot.sound, propext
Qcd.C114_ghost : Classical.choice, Quot.sound, propext
Qcd.C114_ghost_exact : Classical.choice, Quot.sound, propext
Qcd.C114_gluon : Classical.choice, Quot.sound, propext
Qcd.C114_gluon_exact : Classical.choice, Quot.sound, propext
Qcd.C115_decimals : Classical.choice, Quot.sound, propext
Qcd.C115_dressing_inv : Classical.choice, Quot.sound, propext
Qcd.C115_functions : Classical.choice, Quot.sound, propext
Qcd.C115_propagators : Classical.choice, Quot.sound, propext
Qcd.C116_default : Classical.choice, Quot.sound, propext
Qcd.C116_panics : Classical.choice, Quot.sound, propext
Qcd.C116_small : Classical.choice, Quot.sound, propext
Qcd.C117_qcd : Classical.choice, Quot.sound, propext
Qcd.C117_qcd_zero_matsubara : Classical.choice, Quot.sound, propext
Qcd.C117_qcd_zero_momentum : Classical.choice, Quot.sound, propext
Qcd.C117_ym_ghost : Classical.choice, Quot.sound, propext
Qcd.C117_ym_gluon : Classical.choice, Quot.sound, propext
Qcd.C117_ym_zero_matsubara : Classical.choice, Quot.sound, propext
Qcd.C117_ym_zero_momentum : Classical.choice, Quot.sound, propext
Qcd.C118_bracketed : Classical.choice, Quot.sound, propext
Qcd.C118_finite : Classical.choice, Quot.sound, propext
Qcd.C118_flat : Classical.choice, Quot.sound, propext
Qcd.C118_not_finite : Classical.choice, Quot.sound, propext
Qcd.C118_overflow : Classical.choice, Quot.sound, propext
Qcd.C118_panics : Classical.choice, Quot.sound, propext
Qcd.C118_sound : Classical.choice, Quot.sound, propext
Qcd.C118_step : Classical.choice, Quot.sound, propext
Qcd.C119_density : Classical.choice, Quot.sound, propext
Qcd.C119_lost : Classical.choice, Quot.sound, propext
Qcd.C119_odd : Classical.choice, Quot.sound, propext
Qcd.C119_potential : Classical.choice, Quot.sound, propext
Qcd.C119_potential_odd : Classical.choice, Quot.sound, propext
Qcd.C119_potential_zero : Classical.choice, Quot.sound, propext
Qcd.C119_threshold : Classical.choice, Quot.sound, propext
Qcd.C120_fit : Classical.choice, Quot.sound, propext
Qcd.C120_grid : Classical.choice, Quot.sound, propext
Qcd.C120_grid_increasing : Classical.choice, Quot.sound, propext
Qcd.C120_grid_nan : Classical.choice, Quot.sound, propext
Qcd.C120_grid_too_long : Classical.choice, Quot.sound, propext
Qcd.C120_grid_zero_step : Classical.choice, Quot.sound, propext
Qcd.C120_phase : Classical.choice, Quot.sound, propext
Qcd.C120_phase_nan : Classical.choice, Quot.sound, propext
Qcd.C120_phase_panics : Classical.choice, Quot.sound, propext
Qcd.C121_charge_density : Classical.choice, Quot.sound, propext
Qcd.C121_charge_density_zero_temp : Classical.choice, Quot.sound, propext
Qcd.C121_chemical_potential : Classical.choice, Quot.sound, propext
Qcd.C121_chemical_potential_zero_temp : Classical.choice, Quot.sound, propext
Qcd.C121_ends : Classical.choice, Quot.sound, propext
Qcd.C121_functions : Classical.choice, Quot.sound, propext
Qcd.C121_schedule : Classical.choice, Quot.sound, propext
Qcd.C121_setters : Classical.choice, Quot.sound, propext
Qcd.C121_torn : Classical.choice, Quot.sound, propext
Qcd.C121_wrong_colors : Classical.choice, Quot.sound, propext
Qcd.C122_accuracy : Classical.choice, Quot.sound, propext
Qcd.C122_complex : Classical.choice, Quot.sound, propext
Qcd.C122_loss : Classical.choice, Quot.sound, propext
Qcd.C122_pole : Classical.choice, Quot.sound, propext
Qcd.C122_real : Classical.choice, Quot.sound, propext
Qcd.C122_reciprocal : Classical.choice, Quot.sound, propext
Qcd.C123_absorbed : Classical.choice, Quot.sound, propext
Qcd.C123_accuracy : Classical.choice, Quot.sound, propext
Qcd.C123_finite : Classical.choice, Quot.sound, propext
Qcd.C123_integrand_accuracy : Classical.choice, Quot.sound, propext
Qcd.C123_lost : Classical.choice, Quot.sound, propext
Qcd.C123_mono : Classical.choice, Quot.sound, propext
Qcd.C123_nan : Classical.choice, Quot.sound, propext
Qcd.C123_odd : Classical.choice, Quot.sound, propext
Qcd.C123_zero : Classical.choice, Quot.sound, propext
Qcd.C124_chiral_limit : Classical.choice, Quot.sound, propext
Qcd.C124_field_config : Classical.choice, Quot.sound, propext
Qcd.C124_global : Classical.choice, Quot.sound, propext
Qcd.C124_models_agree : Classical.choice, Quot.sound, propext
Qcd.C124_propagator : Classical.choice, Quot.sound, propext
Qcd.C124_very_light : Classical.choice, Quot.sound, propext
Qcd.C125_conjugate : Classical.choice, Quot.sound, propext
Qcd.C125_cut : Classical.choice, Quot.sound, propext
Qcd.C125_cut_sqrt : Classical.choice, Quot.sound, propext
Qcd.C125_dressing_conjugate : Classical.choice, Quot.sound, propext
Qcd.C125_dressing_inv : Classical.choice, Quot.sound, propext
Qcd.C125_elementary : Classical.choice, Quot.sound, propext
Qcd.C125_functions : Classical.choice, Quot.sound, propext
Qcd.C125_imaginary_root : Classical.choice, Quot.sound, propext
Qcd.C125_negation : Classical.choice, Quot.sound, propext
Qcd.C125_propagators : Classical.choice, Quot.sound, propext
Qcd.C125_real_axis : Classical.choice, Quot.sound, propext
Qcd.C126_conjugate : Classical.choice, Quot.sound, propext
Qcd.C126_inverses : Classical.choice, Quot.sound, propext
Qcd.C126_propagators : Classical.choice, Quot.sound, propext
Qcd.C126_propagators_finite : Classical.choice, Quot.sound, propext
Qcd.C126_propagator_spectral : Classical.choice, Quot.sound, propext
Qcd.C126_propagator_spectral_finite : Classical.choice, Quot.sound, propext
Qcd.C126_spectral : Classical.choice, Quot.sound, propext
Qcd.C127_accuracy : Classical.choice, Quot.sound, propext
Qcd.C127_global_accuracy : Classical.choice, Quot.sound, propext
Qcd.C127_global_inverses : Classical.choice, Quot.sound, propext
Qcd.C127_global_propagators : Classical.choice, Quot.sound, propext
Qcd.C127_global_spectral : Classical.choice, Quot.sound, propext
Qcd.C127_inverses : Classical.choice, Quot.sound, propext
Qcd.C127_propagators : Classical.choice, Quot.sound, propext
Qcd.C127_propagator_spectral : Classical.choice, Quot.sound, propext
Qcd.C127_spectral : Classical.choice, Quot.sound, propext
Qcd.C127_sums : Classical.choice, Quot.sound, propext
Qcd.C128_infinite : Classical.choice, Quot.sound, propext
Qcd.C128_massive : Classical.choice, Quot.sound, propext
Qcd.C128_massive_accuracy : Classical.choice, Quot.sound, propext
Qcd.C128_massive_exact : Classical.choice, Quot.sound, propext
Qcd.C128_massive_infinite : Classical.choice, Quot.sound, propext
Qcd.C128_massless : Classical.choice, Quot.sound, propext
Qcd.C128_massless_accuracy : Classical.choice, Quot.sound, propext
Qcd.C128_massless_energy : Classical.choice, Quot.sound, propext
Qcd.C128_massless_exact : Classical.choice, Quot.sound, propext
Qcd.C128_wrong_sign : Classical.choice, Quot.sound, propext
Qcd.C128_zero : Classical.choice, Quot.sound, propext
Qcd.C128_zero_mass : Classical.choice, Quot.sound, propext
Qcd.build.C110_failure : Classical.choice, Quot.sound, propext
Qcd.build.C110_idempotent : Classical.choice, Quot.sound, propext
Qcd.build.C110_main : Classical.choice, Quot.sound, propext
Qcd.build.C110_replaced : Classical.choice, Quot.sound, propext
Qcd.build.C110_text : Classical.choice, Quot.sound, propext
Qcd.consts.C01_getters_return_last_accepted : Classical.choice, Quot.sound, propext
Qcd.consts.C02_ratio_current : Classical.choice, Quot.sound, propext
Qcd.consts.C02_ratio_real : Classical.choice, Quot.sound, propext
Qcd.consts.C03_panics_iff_rejected : Classical.choice, Quot.sound, propext
Qcd.consts.C03_tolerances_positive : Classical.choice, Quot.sound, propext
Qcd.consts.C03_tolerances_positive_real : Classical.choice, Quot.sound, propext
Qcd.consts.C04_race : Classical.choice, Quot.sound, propext
Qcd.consts.C04_serialised : Classical.choice, Quot.sound, propext
Qcd.consts.C04_torn_read : Classical.choice, Quot.sound, propext
Qcd.consts.C05_default_method : Classical.choice, Quot.sound, propext
Qcd.tc.C53_first_maximum : Classical.choice, Quot.sound, propext
Qcd.tc.C54_idempotent : Quot.sound, propext
Qcd.tc.C54_identity : Quot.sound, propext
Qcd.tc.C54_longest_prefix : Quot.sound, propext
Qcd.tc.C55_boundary_confined : Classical.choice, Quot.sound, propext
Qcd.tc.C55_panics_iff : Classical.choice, Quot.sound, propext
Qcd.tc.C55_phase_membership : Classical.choice, Quot.sound, propext
Qcd.tc.C56_plateau : Classical.choice, Quot.sound, propext
Qcd.tc.C57_polynomial : Classical.choice, Quot.sound, propext
Qcd.tc.C58_degenerate : Classical.choice, Quot.sound, propext
Qcd.tc.C58_grid : Classical.choice, Quot.sound, propext
Qcd.tc.C59_invariant : Classical.choice, Quot.sound, propext
Qcd.tc.C59_maybe_corrected : Classical.choice, Quot.sound, propext
Qcd.tc.C59_public_field : Classical.choice, Quot.sound, propext
Qcd.tc.C59_set_panics_iff : Classical.choice, Quot.sound, propext
Qcd.tc.C64_phase_boundary : Classical.choice, Quot.sound, propext
Qcd.tc.C64_unique : Classical.choice, Quot.sound, propext
Qcd.tc.C65_compute_ir_limit_panics : Classical.choice, Quot.sound, propext
Qcd.tc.C65_compute_phase_diagram_panics : Classical.choice, Quot.sound, propext
Qcd.tc.C65_compute_propagators_panics : Classical.choice, Quot.sound, propext
Qcd.tc.C66_second_derivative_file : Classical.choice, Quot.sound, propext
Qcd.tc.C66_second_difference_mean_value : Classical.choice, Quot.sound, propext
Qcd.tc.C67_collision : Classical.choice, Quot.sound, propext
Qcd.tc.C67_other_files : Classical.choice, Quot.sound, propext
Qcd.tc.C67_propagator_files : Classical.choice, Quot.sound, propext
Qcd.tc.C67_renormalized_convention : Classical.choice, Quot.sound, propext
Qcd.tc.C68_main_ends_iff : Classical.choice, Quot.sound, propext
Qcd.tc.C69_fit_not_of_corrected : Classical.choice, Quot.sound, propext
Qcd.tc.C69_run_files : Classical.choice, Quot.sound, propext
Qcd.tc.C76_one_mass_table : Classical.choice, Quot.sound, propext
Qcd.tc.C76_programs_agree : Classical.choice, Quot.sound, propext
Qcd.tc.C76_two_masses_table : Classical.choice, Quot.sound, propext
Qcd.tc.C76_unique : Classical.choice, Quot.sound, propext
Qcd.tc.C77_grid : Classical.choice, Quot.sound, propext
Qcd.tc.C77_one_mass_plots : Classical.choice, Quot.sound, propext
Qcd.tc.C77_one_mass_program : Classical.choice, Quot.sound, propext
Qcd.tc.C77_two_masses_plots : Classical.choice, Quot.sound, propext
Qcd.tc.C77_two_masses_program : Classical.choice, Quot.sound, propext
Qcd.tc.C78_zero_temperature_limit : Classical.choice, Quot.sound, propext
Qcd.tc.C92_program : Classical.choice, Quot.sound, propext
Qcd.tc.C92_run_propagators : Classical.choice, Quot.sound, propext
Qcd.utils.C07_find_root_sound : Classical.choice, Quot.sound, propext
Qcd.utils.C07_find_root_sound_exact : Classical.choice, Quot.sound, propext
Qcd.utils.C08_find_root_characterisation : Classical.choice, Quot.sound, propext
Qcd.utils.C08_last_iterate_untested : Classical.choice, Quot.sound, propext
Qcd.utils.C08_panics_iff : Classical.choice, Quot.sound, propext
Qcd.utils.C08_zero_iterations : Classical.choice, Quot.sound, propext
Qcd.utils.C09_evaluation_budget : Classical.choice, Quot.sound, propext
Qcd.utils.C10_affine : Classical.choice, Quot.sound, propext
Qcd.utils.C11_compute_residue_exact : Classical.choice, Quot.sound, propext
Qcd.utils.C11_residue_limit : Classical.choice, Quot.sound, propext
Qcd.utils.C11_simple_pole_exact : Classical.choice, Quot.sound, propext
Qcd.utils.C12_default : Classical.choice, Quot.sound, propext
Qcd.utils.C12_default_weight : Classical.choice, Quot.sound, propext
Qcd.utils.C12_lorentzian : Classical.choice, Quot.sound, propext
Qcd.utils.C12_no_cut : Classical.choice, Quot.sound, propext
Qcd.utils.C12_real : Classical.choice, Quot.sound, propext
Qcd.utils.C12_weight : Classical.choice, Quot.sound, propext
