{
 "claims": [
  {
   "property": "C01",
   "status": "proved",
   "theorems": [
    "Qcd.consts.C01_getters_return_last_accepted"
   ],
   "note": ""
  },
  {
   "property": "C02",
   "status": "proved",
   "theorems": [
    "Qcd.consts.C02_ratio_current",
    "Qcd.consts.C02_ratio_real"
   ],
   "note": ""
  },
  {
   "property": "C03",
   "status": "proved",
   "theorems": [
    "Qcd.consts.C03_panics_iff_rejected",
    "Qcd.consts.C03_tolerances_positive",
    "Qcd.consts.C03_tolerances_positive_real"
   ],
   "note": ""
  },
  {
   "property": "C04",
   "status": "proved",
   "theorems": [
    "Qcd.consts.C04_race",
    "Qcd.consts.C04_torn_read",
    "Qcd.consts.C04_serialised"
   ],
   "note": ""
  },
  {
   "property": "C05",
   "status": "proved",
   "theorems": [
    "Qcd.consts.C05_default_method"
   ],
   "note": ""
  },
  {
   "property": "C06",
   "status": "proved",
   "theorems": [
    "Qcd.C06_default_method",
    "Qcd.C06_functions",
    "Qcd.C06_tolerance_ignored"
   ],
   "note": ""
  },
  {
   "property": "C07",
   "status": "proved",
   "theorems": [
    "Qcd.utils.C07_find_root_sound",
    "Qcd.utils.C07_find_root_sound_exact"
   ],
   "note": ""
  },
  {
   "property": "C08",
   "status": "proved",
   "theorems": [
    "Qcd.utils.C08_panics_iff",
    "Qcd.utils.C08_find_root_characterisation",
    "Qcd.utils.C08_zero_iterations",
    "Qcd.utils.C08_last_iterate_untested"
   ],
   "note": ""
  },
  {
   "property": "C09",
   "status": "proved",
   "theorems": [
    "Qcd.utils.C09_evaluation_budget"
   ],
   "note": ""
  },
  {
   "property": "C10",
   "status": "proved",
   "theorems": [
    "Qcd.utils.C10_affine"
   ],
   "note": ""
  },
  {
   "property": "C11",
   "status": "proved",
   "theorems": [
    "Qcd.utils.C11_simple_pole_exact",
    "Qcd.utils.C11_compute_residue_exact",
    "Qcd.utils.C11_residue_limit"
   ],
   "note": ""
  },
  {
   "property": "C12",
   "status": "proved",
   "theorems": [
    "Qcd.utils.C12_real",
    "Qcd.utils.C12_no_cut",
    "Qcd.utils.C12_lorentzian",
    "Qcd.utils.C12_weight",
    "Qcd.utils.C12_default",
    "Qcd.utils.C12_default_weight"
   ],
   "note": ""
  },
  {
   "property": "C13",
   "status": "proved",
   "theorems": [
    "Qcd.C13_bounds",
    "Qcd.C13_monotone",
    "Qcd.C13_particle_hole",
    "Qcd.C13_particle_hole_complex"
   ],
   "note": ""
  },
  {
   "property": "C14",
   "status": "proved",
   "theorems": [
    "Qcd.C14_consistency",
    "Qcd.C14_consistency_zero_temp"
   ],
   "note": ""
  },
  {
   "property": "C15",
   "status": "proved",
   "theorems": [
    "Qcd.C15_fermi_limit",
    "Qcd.C15_fermi_surface",
    "Qcd.C15_double_limit",
    "Qcd.C15_double_zero_temp_value",
    "Qcd.C15_bose_limit"
   ],
   "note": ""
  },
  {
   "property": "C16",
   "status": "proved",
   "theorems": [
    "Qcd.C16_bose",
    "Qcd.C16_bose_reflection"
   ],
   "note": ""
  },
  {
   "property": "C17",
   "status": "proved",
   "theorems": [
    "Qcd.C17_sep",
    "Qcd.C17_dressing_inv_affine",
    "Qcd.C17_landau_gauge"
   ],
   "note": ""
  },
  {
   "property": "C18",
   "status": "proved",
   "theorems": [
    "Qcd.C18_consistent"
   ],
   "note": ""
  },
  {
   "property": "C19",
   "status": "proved",
   "theorems": [
    "Qcd.C19_loops",
    "Qcd.C19_ym",
    "Qcd.C19_qcd"
   ],
   "note": ""
  },
  {
   "property": "C20",
   "status": "proved",
   "theorems": [
    "Qcd.C20_loops",
    "Qcd.C20_dressing_inv",
    "Qcd.C20_propagator"
   ],
   "note": ""
  },
  {
   "property": "C21",
   "status": "proved",
   "theorems": [
    "Qcd.C21_loops",
    "Qcd.C21_qcd"
   ],
   "note": ""
  },
  {
   "property": "C22",
   "status": "proved",
   "theorems": [
    "Qcd.C22_zero_momentum"
   ],
   "note": ""
  },
  {
   "property": "C23",
   "status": "proved",
   "theorems": [
    "Qcd.C23_complex",
    "Qcd.C23_real"
   ],
   "note": ""
  },
  {
   "property": "C24",
   "status": "proved",
   "theorems": [
    "Qcd.C24_loops",
    "Qcd.C24_gluon",
    "Qcd.C24_ghost"
   ],
   "note": ""
  },
  {
   "property": "C25",
   "status": "proved",
   "theorems": [
    "Qcd.C25_loops",
    "Qcd.C25_qcd",
    "Qcd.C25_ratios"
   ],
   "note": ""
  },
  {
   "property": "C26",
   "status": "proved",
   "theorems": [
    "Qcd.C26_loops",
    "Qcd.C26_ym",
    "Qcd.C26_qcd",
    "Qcd.C26_zero_undefined"
   ],
   "note": ""
  },
  {
   "property": "C27",
   "status": "proved",
   "theorems": [
    "Qcd.C27_config",
    "Qcd.C27_global"
   ],
   "note": ""
  },
  {
   "property": "C28",
   "status": "proved",
   "theorems": [
    "Qcd.C28_interfaces_agree"
   ],
   "note": ""
  },
  {
   "property": "C29",
   "status": "proved",
   "theorems": [
    "Qcd.C29_additive",
    "Qcd.C29_order",
    "Qcd.C29_split",
    "Qcd.C29_zero_entry",
    "Qcd.C29_order_general",
    "Qcd.C29_split_general",
    "Qcd.C29_zero_entry_general",
    "Qcd.C29_additive_general",
    "Qcd.C29_order_zero_matsubara",
    "Qcd.C29_split_zero_matsubara",
    "Qcd.C29_zero_entry_zero_matsubara",
    "Qcd.C29_additive_zero_matsubara",
    "Qcd.C29_order_zero_momentum",
    "Qcd.C29_split_zero_momentum",
    "Qcd.C29_zero_entry_zero_momentum",
    "Qcd.C29_additive_zero_momentum"
   ],
   "note": ""
  },
  {
   "property": "C30",
   "status": "proved",
   "theorems": [
    "Qcd.C30_independent_of_globals",
    "Qcd.C30_globals_matter"
   ],
   "note": ""
  },
  {
   "property": "C31",
   "status": "proved",
   "theorems": [
    "Qcd.C31_reads_only_general",
    "Qcd.C31_scaling_general",
    "Qcd.C31_reads_only_zero_matsubara",
    "Qcd.C31_scaling_zero_matsubara",
    "Qcd.C31_reads_only_zero_momentum",
    "Qcd.C31_scaling_zero_momentum",
    "Qcd.C31_violation",
    "Qcd.C31_violation_reachable"
   ],
   "note": ""
  },
  {
   "property": "C32",
   "status": "proved",
   "theorems": [
    "Qcd.C32_new",
    "Qcd.C32_stale",
    "Qcd.C32_stale_wrong"
   ],
   "note": ""
  },
  {
   "property": "C33",
   "status": "proved",
   "theorems": [
    "Qcd.C33_thermal",
    "Qcd.C33_thermal_zero_momentum",
    "Qcd.C33_thermal_zero_matsubara",
    "Qcd.C33_ghost_thermal",
    "Qcd.C33_ghost_thermal_zero_momentum",
    "Qcd.C33_gluon_thermal",
    "Qcd.C33_gluon_thermal_zero_momentum"
   ],
   "note": ""
  },
  {
   "property": "C34",
   "status": "proved",
   "theorems": [
    "Qcd.C34_thermal",
    "Qcd.C34_thermal_zero_momentum",
    "Qcd.C34_thermal_zero_matsubara"
   ],
   "note": ""
  },
  {
   "property": "C35",
   "status": "proved",
   "theorems": [
    "Qcd.C35_thermal_same_mass",
    "Qcd.C35_thermal_second_mass_zero",
    "Qcd.C35_thermal_zero_mass",
    "Qcd.C35_thermal_zero_momentum_same_mass",
    "Qcd.C35_thermal_zero_momentum_second_mass_zero",
    "Qcd.C35_thermal_zero_momentum_zero_mass",
    "Qcd.C35_thermal_zero_matsubara_same_mass",
    "Qcd.C35_thermal_zero_matsubara_second_mass_zero",
    "Qcd.C35_thermal_zero_matsubara_zero_mass",
    "Qcd.C35_thermal_tadpoles"
   ],
   "note": ""
  },
  {
   "property": "C36",
   "status": "proved",
   "theorems": [
    "Qcd.C36_strip_of_real",
    "Qcd.C36_frequency_thermal",
    "Qcd.C36_frequency_thermal_zero_momentum",
    "Qcd.C36_frequency_ghost_thermal",
    "Qcd.C36_frequency_ghost_thermal_zero_momentum",
    "Qcd.C36_frequency_gluon_thermal",
    "Qcd.C36_frequency_gluon_thermal_zero_momentum",
    "Qcd.C36_momentum_thermal",
    "Qcd.C36_momentum_thermal_zero_matsubara",
    "Qcd.C36_momentum_ghost_thermal",
    "Qcd.C36_momentum_ghost_thermal_zero_matsubara",
    "Qcd.C36_momentum_gluon_thermal",
    "Qcd.C36_momentum_gluon_thermal_zero_matsubara"
   ],
   "note": ""
  },
  {
   "property": "C37",
   "status": "proved",
   "theorems": [
    "Qcd.C37_thermal",
    "Qcd.C37_thermal_zero_momentum",
    "Qcd.C37_thermal_zero_matsubara",
    "Qcd.C37_ghost_thermal",
    "Qcd.C37_ghost_thermal_zero_momentum",
    "Qcd.C37_ghost_thermal_zero_matsubara",
    "Qcd.C37_gluon_thermal",
    "Qcd.C37_gluon_thermal_zero_matsubara",
    "Qcd.C37_gluon_thermal_zero_momentum"
   ],
   "note": ""
  },
  {
   "property": "C38",
   "status": "proved",
   "theorems": [
    "Qcd.C38_denominators",
    "Qcd.C38_tlog",
    "Qcd.C38_strip"
   ],
   "note": ""
  },
  {
   "property": "C39",
   "status": "proved",
   "theorems": [
    "Qcd.C39_integrals_agree",
    "Qcd.C39_d_i_m_m_i",
    "Qcd.C39_d_i_m_m_l_i",
    "Qcd.C39_d_i_m_m_t_i",
    "Qcd.C39_d_i_m_m_i_same_mass",
    "Qcd.C39_d_i_m_m_l_i_same_mass",
    "Qcd.C39_d_i_m_m_t_i_same_mass",
    "Qcd.C39_d_i_m_0_i",
    "Qcd.C39_d_i_m_0_l_i",
    "Qcd.C39_d_i_m_0_t_i",
    "Qcd.C39_zero_momentum_d_i_m_m_i",
    "Qcd.C39_zero_momentum_d_i_m_m_l_i",
    "Qcd.C39_zero_momentum_d_i_m_m_t_i",
    "Qcd.C39_tadpoles",
    "Qcd.C39_second_derivatives",
    "Qcd.C39_d_i_m_m_i_same_mass_total",
    "Qcd.C39_d_i_m_m_l_i_same_mass_total",
    "Qcd.C39_d_i_m_m_t_i_same_mass_total"
   ],
   "note": ""
  },
  {
   "property": "C40",
   "status": "proved",
   "theorems": [
    "Qcd.C40_i_m_m_i",
    "Qcd.C40_i_m_m_l_i",
    "Qcd.C40_i_m_m_t_i",
    "Qcd.C40_d_i_m_m_i",
    "Qcd.C40_d_i_m_m_l_i",
    "Qcd.C40_d_i_m_m_t_i",
    "Qcd.C40_regular_of_strip",
    "Qcd.C40_ghost_self_energy",
    "Qcd.C40_glue_l",
    "Qcd.C40_glue_t",
    "Qcd.C40_quark_l",
    "Qcd.C40_quark_t",
    "Qcd.C40_quark_l_zero_temp",
    "Qcd.C40_quark_t_zero_temp",
    "Qcd.C40_same_mass",
    "Qcd.C40_second_mass_zero",
    "Qcd.C40_zero_mass"
   ],
   "note": ""
  },
  {
   "property": "C41",
   "status": "proved",
   "theorems": [
    "Qcd.C41_i_m_m_i",
    "Qcd.C41_i_m_m_l_i",
    "Qcd.C41_i_m_m_t_i",
    "Qcd.C41_d_i_m_m_i",
    "Qcd.C41_d_i_m_m_l_i",
    "Qcd.C41_d_i_m_m_t_i",
    "Qcd.C41_same_mass",
    "Qcd.C41_second_mass_zero",
    "Qcd.C41_zero_mass",
    "Qcd.C41_ghost_self_energy",
    "Qcd.C41_glue_l",
    "Qcd.C41_glue_t",
    "Qcd.C41_quark_l",
    "Qcd.C41_quark_t",
    "Qcd.C41_quark_l_zero_temp",
    "Qcd.C41_quark_t_zero_temp"
   ],
   "note": ""
  },
  {
   "property": "C42",
   "status": "proved",
   "theorems": [
    "Qcd.C42_gluon_thermal_zero_momentum",
    "Qcd.C42_ym_thermal_zero_momentum_gluon",
    "Qcd.C42_qcd_thermal_zero_momentum_gluon"
   ],
   "note": ""
  },
  {
   "property": "C43",
   "status": "proved",
   "theorems": [
    "Qcd.C43_ym_thermal_ghost",
    "Qcd.C43_ym_thermal_gluon",
    "Qcd.C43_ym_thermal_zero_matsubara_ghost",
    "Qcd.C43_ym_thermal_zero_matsubara_gluon",
    "Qcd.C43_ym_thermal_zero_momentum_ghost",
    "Qcd.C43_ym_thermal_zero_momentum_gluon",
    "Qcd.C43_qcd_thermal_gluon",
    "Qcd.C43_qcd_thermal_zero_matsubara_gluon",
    "Qcd.C43_qcd_thermal_zero_momentum_gluon"
   ],
   "note": ""
  },
  {
   "property": "C44",
   "status": "proved",
   "theorems": [
    "Qcd.C44_no_fermions_general",
    "Qcd.C44_no_fermions_zero_temp_general",
    "Qcd.C44_zero_density_general",
    "Qcd.C44_no_quarks_general_complex",
    "Qcd.C44_zero_density_config_general_complex",
    "Qcd.C44_interfaces_general_complex",
    "Qcd.C44_no_quarks_general_real",
    "Qcd.C44_zero_density_config_general_real",
    "Qcd.C44_interfaces_general_real",
    "Qcd.C44_no_fermions_zero_matsubara",
    "Qcd.C44_no_fermions_zero_temp_zero_matsubara",
    "Qcd.C44_zero_density_zero_matsubara",
    "Qcd.C44_no_quarks_zero_matsubara",
    "Qcd.C44_zero_density_config_zero_matsubara",
    "Qcd.C44_interfaces_zero_matsubara",
    "Qcd.C44_no_fermions_zero_momentum",
    "Qcd.C44_no_fermions_zero_temp_zero_momentum",
    "Qcd.C44_zero_density_zero_momentum",
    "Qcd.C44_no_quarks_zero_momentum",
    "Qcd.C44_zero_density_config_zero_momentum",
    "Qcd.C44_interfaces_zero_momentum"
   ],
   "note": ""
  },
  {
   "property": "C45",
   "status": "proved",
   "theorems": [
    "Qcd.C45_gluon_thermal",
    "Qcd.C45_gluon_thermal_zero_matsubara",
    "Qcd.C45_gluon_thermal_zero_momentum",
    "Qcd.C45_qcd_thermal_gluon",
    "Qcd.C45_qcd_thermal_zero_matsubara_gluon",
    "Qcd.C45_qcd_thermal_zero_momentum_gluon"
   ],
   "note": ""
  },
  {
   "property": "C46",
   "status": "proved",
   "theorems": [
    "Qcd.C46_integrable_cplx",
    "Qcd.C46_integrable_real",
    "Qcd.C46_ghost_thermal_self_energy",
    "Qcd.C46_ghost_thermal_zero_matsubara_self_energy",
    "Qcd.C46_ghost_thermal_zero_momentum_self_energy",
    "Qcd.C46_gluon_thermal_polarization_glue_l",
    "Qcd.C46_gluon_thermal_polarization_glue_t",
    "Qcd.C46_gluon_thermal_polarization_quark_l",
    "Qcd.C46_gluon_thermal_polarization_quark_t",
    "Qcd.C46_gluon_thermal_zero_matsubara_polarization_glue_l",
    "Qcd.C46_gluon_thermal_zero_matsubara_polarization_glue_t",
    "Qcd.C46_gluon_thermal_zero_matsubara_polarization_quark_l",
    "Qcd.C46_gluon_thermal_zero_matsubara_polarization_quark_t",
    "Qcd.C46_gluon_thermal_zero_momentum_polarization_glue_l",
    "Qcd.C46_gluon_thermal_zero_momentum_polarization_glue_t",
    "Qcd.C46_gluon_thermal_zero_momentum_polarization_quark_l",
    "Qcd.C46_gluon_thermal_zero_momentum_polarization_quark_t"
   ],
   "note": ""
  },
  {
   "property": "C47",
   "status": "proved",
   "theorems": [
    "Qcd.C47_gluon_thermal_polarization_quark_l_zero_temp",
    "Qcd.C47_gluon_thermal_polarization_quark_t_zero_temp",
    "Qcd.C47_gluon_thermal_zero_matsubara_polarization_quark_l_zero_temp",
    "Qcd.C47_gluon_thermal_zero_matsubara_polarization_quark_t_zero_temp",
    "Qcd.C47_gluon_thermal_zero_momentum_polarization_quark_l_zero_temp",
    "Qcd.C47_gluon_thermal_zero_momentum_polarization_quark_t_zero_temp",
    "Qcd.C47_below_threshold"
   ],
   "note": ""
  },
  {
   "property": "C48",
   "status": "proved",
   "theorems": [
    "Qcd.C48_ghost_thermal_self_energy",
    "Qcd.C48_ghost_thermal_zero_matsubara_self_energy",
    "Qcd.C48_ghost_thermal_zero_momentum_self_energy",
    "Qcd.C48_gluon_thermal_polarization_glue_l",
    "Qcd.C48_gluon_thermal_polarization_glue_t",
    "Qcd.C48_gluon_thermal_polarization_quark_l",
    "Qcd.C48_gluon_thermal_polarization_quark_l_outside",
    "Qcd.C48_gluon_thermal_polarization_quark_t",
    "Qcd.C48_gluon_thermal_polarization_quark_t_outside",
    "Qcd.C48_gluon_thermal_zero_matsubara_polarization_glue_l",
    "Qcd.C48_gluon_thermal_zero_matsubara_polarization_glue_t",
    "Qcd.C48_gluon_thermal_zero_matsubara_polarization_quark_l",
    "Qcd.C48_gluon_thermal_zero_matsubara_polarization_quark_l_outside",
    "Qcd.C48_gluon_thermal_zero_matsubara_polarization_quark_t",
    "Qcd.C48_gluon_thermal_zero_matsubara_polarization_quark_t_outside",
    "Qcd.C48_gluon_thermal_zero_momentum_polarization_glue_l",
    "Qcd.C48_gluon_thermal_zero_momentum_polarization_glue_t",
    "Qcd.C48_gluon_thermal_zero_momentum_polarization_quark_l",
    "Qcd.C48_gluon_thermal_zero_momentum_polarization_quark_l_outside",
    "Qcd.C48_gluon_thermal_zero_momentum_polarization_quark_t",
    "Qcd.C48_gluon_thermal_zero_momentum_polarization_quark_t_outside"
   ],
   "note": ""
  },
  {
   "property": "C49",
   "status": "proved",
   "theorems": [
    "Qcd.C49_thermal",
    "Qcd.C49_thermal_zero_momentum",
    "Qcd.C49_thermal_zero_matsubara",
    "Qcd.C49_ghost_thermal",
    "Qcd.C49_ghost_thermal_zero_momentum",
    "Qcd.C49_ghost_thermal_zero_matsubara",
    "Qcd.C49_gluon_thermal",
    "Qcd.C49_gluon_thermal_zero_matsubara",
    "Qcd.C49_gluon_thermal_zero_momentum"
   ],
   "note": ""
  },
  {
   "property": "C50",
   "status": "proved",
   "theorems": [
    "Qcd.C50_odd",
    "Qcd.C50_zero",
    "Qcd.C50_converges",
    "Qcd.C50_strictMono",
    "Qcd.C50_sign",
    "Qcd.C50_colours"
   ],
   "note": ""
  },
  {
   "property": "C51",
   "status": "proved",
   "theorems": [
    "Qcd.C51_density_threshold",
    "Qcd.C51_density_value",
    "Qcd.C51_chemical_potential_of_density",
    "Qcd.C51_density_of_chemical_potential",
    "Qcd.C51_fermi_momentum"
   ],
   "note": ""
  },
  {
   "property": "C52",
   "status": "proved",
   "theorems": [
    "Qcd.C52_sound",
    "Qcd.C52_zero",
    "Qcd.C52_no_tolerance",
    "Qcd.C52_default",
    "Qcd.C52_unique"
   ],
   "note": ""
  },
  {
   "property": "C53",
   "status": "proved",
   "theorems": [
    "Qcd.tc.C53_first_maximum"
   ],
   "note": ""
  },
  {
   "property": "C54",
   "status": "proved",
   "theorems": [
    "Qcd.tc.C54_longest_prefix",
    "Qcd.tc.C54_identity",
    "Qcd.tc.C54_idempotent"
   ],
   "note": ""
  },
  {
   "property": "C55",
   "status": "proved",
   "theorems": [
    "Qcd.tc.C55_phase_membership",
    "Qcd.tc.C55_boundary_confined",
    "Qcd.tc.C55_panics_iff"
   ],
   "note": ""
  },
  {
   "property": "C56",
   "status": "proved",
   "theorems": [
    "Qcd.tc.C56_plateau"
   ],
   "note": ""
  },
  {
   "property": "C57",
   "status": "proved",
   "theorems": [
    "Qcd.tc.C57_polynomial"
   ],
   "note": ""
  },
  {
   "property": "C58",
   "status": "proved",
   "theorems": [
    "Qcd.tc.C58_grid",
    "Qcd.tc.C58_degenerate"
   ],
   "note": ""
  },
  {
   "property": "C59",
   "status": "proved",
   "theorems": [
    "Qcd.tc.C59_invariant",
    "Qcd.tc.C59_maybe_corrected",
    "Qcd.tc.C59_public_field",
    "Qcd.tc.C59_set_panics_iff"
   ],
   "note": ""
  },
  {
   "property": "C60",
   "status": "proved",
   "theorems": [
    "Qcd.C60_uv_matching",
    "Qcd.C60_new_mass_independent"
   ],
   "note": ""
  },
  {
   "property": "C61",
   "status": "proved",
   "theorems": [
    "Qcd.C61_feynman",
    "Qcd.C61_feynman_crossed",
    "Qcd.C61_sign"
   ],
   "note": ""
  },
  {
   "property": "C62",
   "status": "proved",
   "theorems": [
    "Qcd.C62_i_m_m_i",
    "Qcd.C62_i_m_m_l_i",
    "Qcd.C62_i_m_m_t_i",
    "Qcd.C62_i_m_m_i_same_mass",
    "Qcd.C62_i_m_0_i",
    "Qcd.C62_i_0_0_i",
    "Qcd.C62_i_m_m_l_i_same_mass",
    "Qcd.C62_i_m_0_l_i",
    "Qcd.C62_i_0_0_l_i",
    "Qcd.C62_i_m_m_t_i_same_mass",
    "Qcd.C62_i_m_0_t_i",
    "Qcd.C62_i_0_0_t_i",
    "Qcd.C62_zero_matsubara_i_m_m_i",
    "Qcd.C62_zero_matsubara_i_m_m_i_same_mass",
    "Qcd.C62_zero_matsubara_i_m_0_i",
    "Qcd.C62_zero_matsubara_i_0_0_i",
    "Qcd.C62_zero_matsubara_i_m_m_l_i",
    "Qcd.C62_zero_matsubara_i_m_m_l_i_same_mass",
    "Qcd.C62_zero_matsubara_i_m_0_l_i",
    "Qcd.C62_zero_matsubara_i_0_0_l_i",
    "Qcd.C62_zero_matsubara_i_m_m_t_i",
    "Qcd.C62_zero_matsubara_i_m_m_t_i_same_mass",
    "Qcd.C62_zero_matsubara_i_m_0_t_i",
    "Qcd.C62_zero_matsubara_i_0_0_t_i",
    "Qcd.C62_tadpoles",
    "Qcd.C62_tadpoles_massless",
    "Qcd.C62_regular_zero_matsubara",
    "Qcd.C62_regular_strip",
    "Qcd.C62_regular_real",
    "Qcd.C62_zero_momentum_i_m_m_i",
    "Qcd.C62_zero_momentum_i_m_m_i_same_mass",
    "Qcd.C62_zero_momentum_i_m_0_i",
    "Qcd.C62_zero_momentum_i_0_0_i",
    "Qcd.C62_zero_momentum_i_m_m_l_i",
    "Qcd.C62_zero_momentum_i_m_m_l_i_same_mass",
    "Qcd.C62_zero_momentum_i_m_0_l_i",
    "Qcd.C62_zero_momentum_i_0_0_l_i",
    "Qcd.C62_zero_momentum_i_m_m_t_i",
    "Qcd.C62_zero_momentum_i_m_m_t_i_same_mass",
    "Qcd.C62_zero_momentum_i_m_0_t_i",
    "Qcd.C62_zero_momentum_i_0_0_t_i"
   ],
   "note": ""
  },
  {
   "property": "C63",
   "status": "proved",
   "theorems": [
    "Qcd.C63_quark_l",
    "Qcd.C63_quark_t",
    "Qcd.C63_zero_momentum_quark_l",
    "Qcd.C63_zero_momentum_quark_t",
    "Qcd.C63_quark_l_zero_temp",
    "Qcd.C63_quark_t_zero_temp",
    "Qcd.C63_zero_momentum_quark_l_zero_temp",
    "Qcd.C63_zero_momentum_quark_t_zero_temp",
    "Qcd.C63_zero_matsubara_quark_l",
    "Qcd.C63_zero_matsubara_quark_t",
    "Qcd.C63_zero_matsubara_quark_l_zero_temp",
    "Qcd.C63_zero_matsubara_quark_t_zero_temp"
   ],
   "note": ""
  },
  {
   "property": "C64",
   "status": "proved",
   "theorems": [
    "Qcd.tc.C64_phase_boundary",
    "Qcd.tc.C64_unique"
   ],
   "note": ""
  },
  {
   "property": "C65",
   "status": "proved",
   "theorems": [
    "Qcd.tc.C65_compute_propagators_panics",
    "Qcd.tc.C65_compute_ir_limit_panics",
    "Qcd.tc.C65_compute_phase_diagram_panics"
   ],
   "note": ""
  },
  {
   "property": "C66",
   "status": "proved",
   "theorems": [
    "Qcd.tc.C66_second_derivative_file",
    "Qcd.tc.C66_second_difference_mean_value"
   ],
   "note": ""
  },
  {
   "property": "C67",
   "status": "proved",
   "theorems": [
    "Qcd.tc.C67_propagator_files",
    "Qcd.tc.C67_other_files",
    "Qcd.tc.C67_renormalized_convention",
    "Qcd.tc.C67_collision"
   ],
   "note": ""
  },
  {
   "property": "C68",
   "status": "proved",
   "theorems": [
    "Qcd.tc.C68_main_ends_iff"
   ],
   "note": ""
  },
  {
   "property": "C69",
   "status": "proved",
   "theorems": [
    "Qcd.tc.C69_run_files",
    "Qcd.tc.C69_fit_not_of_corrected"
   ],
   "note": ""
  },
  {
   "property": "C70",
   "status": "proved",
   "theorems": [
    "Qcd.C70_ghost_self_energy"
   ],
   "note": ""
  },
  {
   "property": "C71",
   "status": "proved",
   "theorems": [
    "Qcd.C71_polarization_glue_l",
    "Qcd.C71_polarization_glue_t"
   ],
   "note": ""
  },
  {
   "property": "C72",
   "status": "proved",
   "theorems": [
    "Qcd.C72_ghost_thermal_self_energy",
    "Qcd.C72_gluon_thermal_polarization_glue_l",
    "Qcd.C72_gluon_thermal_polarization_glue_t",
    "Qcd.C72_gluon_thermal_polarization_quark_l",
    "Qcd.C72_gluon_thermal_polarization_quark_t",
    "Qcd.C72_ghost_thermal_zero_momentum_self_energy",
    "Qcd.C72_gluon_thermal_zero_momentum_polarization_glue_l",
    "Qcd.C72_gluon_thermal_zero_momentum_polarization_glue_t",
    "Qcd.C72_gluon_thermal_zero_momentum_polarization_quark_l",
    "Qcd.C72_gluon_thermal_zero_momentum_polarization_quark_t",
    "Qcd.C72_gluon_thermal_zero_matsubara_polarization_glue_l",
    "Qcd.C72_gluon_thermal_zero_matsubara_polarization_glue_t",
    "Qcd.C72_gluon_thermal_zero_matsubara_polarization_quark_l",
    "Qcd.C72_gluon_thermal_zero_matsubara_polarization_quark_t",
    "Qcd.C72_ym_thermal_ghost_dressing_inv",
    "Qcd.C72_ym_thermal_ghost_propagator",
    "Qcd.C72_ym_thermal_zero_momentum_ghost_dressing_inv",
    "Qcd.C72_ym_thermal_zero_momentum_ghost_propagator",
    "Qcd.C72_ym_thermal_gluon_dressing_l_inv",
    "Qcd.C72_ym_thermal_gluon_propagator_l",
    "Qcd.C72_ym_thermal_zero_momentum_gluon_dressing_l_inv",
    "Qcd.C72_ym_thermal_zero_momentum_gluon_propagator_l",
    "Qcd.C72_ym_thermal_gluon_dressing_t_inv",
    "Qcd.C72_ym_thermal_gluon_propagator_t",
    "Qcd.C72_ym_thermal_zero_momentum_gluon_dressing_t_inv",
    "Qcd.C72_ym_thermal_zero_momentum_gluon_propagator_t",
    "Qcd.C72_ym_thermal_zero_matsubara_gluon_dressing_l_inv",
    "Qcd.C72_ym_thermal_zero_matsubara_gluon_propagator_l",
    "Qcd.C72_ym_thermal_zero_matsubara_gluon_dressing_t_inv",
    "Qcd.C72_ym_thermal_zero_matsubara_gluon_propagator_t",
    "Qcd.C72_qcd_thermal_gluon_dressing_l_inv",
    "Qcd.C72_qcd_thermal_gluon_propagator_l",
    "Qcd.C72_qcd_thermal_gluon_dressing_l_inv_w_field_config",
    "Qcd.C72_qcd_thermal_gluon_propagator_l_w_field_config",
    "Qcd.C72_qcd_thermal_gluon_dressing_t_inv",
    "Qcd.C72_qcd_thermal_gluon_propagator_t",
    "Qcd.C72_qcd_thermal_gluon_dressing_t_inv_w_field_config",
    "Qcd.C72_qcd_thermal_gluon_propagator_t_w_field_config",
    "Qcd.C72_qcd_thermal_zero_momentum_gluon_dressing_l_inv",
    "Qcd.C72_qcd_thermal_zero_momentum_gluon_propagator_l",
    "Qcd.C72_qcd_thermal_zero_momentum_gluon_dressing_l_inv_w_field_config",
    "Qcd.C72_qcd_thermal_zero_momentum_gluon_propagator_l_w_field_config",
    "Qcd.C72_qcd_thermal_zero_momentum_gluon_dressing_t_inv",
    "Qcd.C72_qcd_thermal_zero_momentum_gluon_propagator_t",
    "Qcd.C72_qcd_thermal_zero_momentum_gluon_dressing_t_inv_w_field_config",
    "Qcd.C72_qcd_thermal_zero_momentum_gluon_propagator_t_w_field_config",
    "Qcd.C72_qcd_thermal_zero_matsubara_gluon_dressing_l_inv",
    "Qcd.C72_qcd_thermal_zero_matsubara_gluon_propagator_l",
    "Qcd.C72_qcd_thermal_zero_matsubara_gluon_dressing_l_inv_w_field_config",
    "Qcd.C72_qcd_thermal_zero_matsubara_gluon_propagator_l_w_field_config",
    "Qcd.C72_qcd_thermal_zero_matsubara_gluon_dressing_t_inv",
    "Qcd.C72_qcd_thermal_zero_matsubara_gluon_propagator_t",
    "Qcd.C72_qcd_thermal_zero_matsubara_gluon_dressing_t_inv_w_field_config",
    "Qcd.C72_qcd_thermal_zero_matsubara_gluon_propagator_t_w_field_config",
    "Qcd.C72_qcd_thermal_gluon_dressing_l_inv_vacuum",
    "Qcd.C72_qcd_thermal_gluon_dressing_l_inv_w_field_config_vacuum",
    "Qcd.C72_qcd_thermal_gluon_dressing_t_inv_vacuum",
    "Qcd.C72_qcd_thermal_gluon_dressing_t_inv_w_field_config_vacuum",
    "Qcd.C72_qcd_thermal_zero_momentum_gluon_dressing_l_inv_vacuum",
    "Qcd.C72_qcd_thermal_zero_momentum_gluon_dressing_l_inv_w_field_config_vacuum",
    "Qcd.C72_qcd_thermal_zero_momentum_gluon_dressing_t_inv_vacuum",
    "Qcd.C72_qcd_thermal_zero_momentum_gluon_dressing_t_inv_w_field_config_vacuum",
    "Qcd.C72_qcd_thermal_zero_matsubara_gluon_dressing_l_inv_vacuum",
    "Qcd.C72_qcd_thermal_zero_matsubara_gluon_dressing_l_inv_w_field_config_vacuum",
    "Qcd.C72_qcd_thermal_zero_matsubara_gluon_dressing_t_inv_vacuum",
    "Qcd.C72_qcd_thermal_zero_matsubara_gluon_dressing_t_inv_w_field_config_vacuum"
   ],
   "note": ""
  },
  {
   "property": "C73",
   "status": "proved",
   "theorems": [
    "Qcd.C73_ghost_thermal_self_energy",
    "Qcd.C73_gluon_thermal_polarization_glue_l",
    "Qcd.C73_gluon_thermal_polarization_glue_t",
    "Qcd.C73_gluon_thermal_polarization_quark_l",
    "Qcd.C73_gluon_thermal_polarization_quark_l_zero_temp",
    "Qcd.C73_gluon_thermal_polarization_quark_t",
    "Qcd.C73_gluon_thermal_polarization_quark_t_zero_temp",
    "Qcd.C73_ghost_thermal_zero_momentum_self_energy",
    "Qcd.C73_gluon_thermal_zero_momentum_polarization_glue_l",
    "Qcd.C73_gluon_thermal_zero_momentum_polarization_glue_t",
    "Qcd.C73_gluon_thermal_zero_momentum_polarization_quark_l",
    "Qcd.C73_gluon_thermal_zero_momentum_polarization_quark_l_zero_temp",
    "Qcd.C73_gluon_thermal_zero_momentum_polarization_quark_t",
    "Qcd.C73_gluon_thermal_zero_momentum_polarization_quark_t_zero_temp",
    "Qcd.C73_gluon_thermal_zero_matsubara_polarization_glue_l",
    "Qcd.C73_gluon_thermal_zero_matsubara_polarization_glue_t",
    "Qcd.C73_gluon_thermal_zero_matsubara_polarization_quark_l",
    "Qcd.C73_gluon_thermal_zero_matsubara_polarization_quark_t"
   ],
   "note": ""
  },
  {
   "property": "C74",
   "status": "proved",
   "theorems": [
    "Qcd.C74_pole",
    "Qcd.C74_not_integrable",
    "Qcd.C74_not_integrable_compactified"
   ],
   "note": ""
  },
  {
   "property": "C75",
   "status": "proved",
   "theorems": [
    "Qcd.C75_quark_l",
    "Qcd.C75_quark_t",
    "Qcd.C75_quark_l_fixed_mu",
    "Qcd.C75_quark_t_fixed_mu",
    "Qcd.C75_quark_l_zero_momentum",
    "Qcd.C75_quark_t_zero_momentum",
    "Qcd.C75_quark_l_zero_matsubara",
    "Qcd.C75_quark_t_zero_matsubara",
    "Qcd.C75_debye",
    "Qcd.C75_no_magnetic_mass"
   ],
   "note": ""
  },
  {
   "property": "C76",
   "status": "proved",
   "theorems": [
    "Qcd.tc.C76_one_mass_table",
    "Qcd.tc.C76_two_masses_table",
    "Qcd.tc.C76_unique",
    "Qcd.tc.C76_programs_agree"
   ],
   "note": ""
  },
  {
   "property": "C77",
   "status": "proved",
   "theorems": [
    "Qcd.tc.C77_one_mass_plots",
    "Qcd.tc.C77_two_masses_plots",
    "Qcd.tc.C77_grid",
    "Qcd.tc.C77_one_mass_program",
    "Qcd.tc.C77_two_masses_program"
   ],
   "note": ""
  },
  {
   "property": "C78",
   "status": "proved",
   "theorems": [
    "Qcd.tc.C78_zero_temperature_limit"
   ],
   "note": ""
  },
  {
   "property": "C79",
   "status": "proved",
   "theorems": [
    "Qcd.C79_symbols_distinct",
    "Qcd.C79_compute",
    "Qcd.C79_set",
    "Qcd.C79_process",
    "Qcd.C79_process_rejected"
   ],
   "note": ""
  },
  {
   "property": "C80",
   "status": "proved",
   "theorems": [
    "Qcd.C80_real_complex"
   ],
   "note": ""
  },
  {
   "property": "C81",
   "status": "proved",
   "theorems": [
    "Qcd.C81_i_m_m_i",
    "Qcd.C81_i_m_m_i_same_mass",
    "Qcd.C81_i_m_0_i",
    "Qcd.C81_i_0_0_i",
    "Qcd.C81_i_m_m_l_i",
    "Qcd.C81_i_m_m_l_i_same_mass",
    "Qcd.C81_i_m_0_l_i",
    "Qcd.C81_i_0_0_l_i",
    "Qcd.C81_i_m_m_t_i",
    "Qcd.C81_i_m_m_t_i_same_mass",
    "Qcd.C81_i_m_0_t_i",
    "Qcd.C81_i_0_0_t_i",
    "Qcd.C81_zero_momentum_i_m_m_i",
    "Qcd.C81_zero_momentum_i_m_m_i_same_mass",
    "Qcd.C81_zero_momentum_i_m_0_i",
    "Qcd.C81_zero_momentum_i_0_0_i",
    "Qcd.C81_zero_momentum_i_m_m_l_i",
    "Qcd.C81_zero_momentum_i_m_m_l_i_same_mass",
    "Qcd.C81_zero_momentum_i_m_0_l_i",
    "Qcd.C81_zero_momentum_i_0_0_l_i",
    "Qcd.C81_zero_momentum_i_m_m_t_i",
    "Qcd.C81_zero_momentum_i_m_m_t_i_same_mass",
    "Qcd.C81_zero_momentum_i_m_0_t_i",
    "Qcd.C81_zero_momentum_i_0_0_t_i",
    "Qcd.C81_tadpoles",
    "Qcd.C81_ghost_self_energy",
    "Qcd.C81_polarization_l",
    "Qcd.C81_polarization_t"
   ],
   "note": ""
  },
  {
   "property": "C82",
   "status": "proved",
   "theorems": [
    "Qcd.C82_d_i_m_m_i_same_mass",
    "Qcd.C82_d_i_m_0_i",
    "Qcd.C82_d_i_m_m_l_i_same_mass",
    "Qcd.C82_d_i_m_0_l_i",
    "Qcd.C82_d_i_m_m_t_i_same_mass",
    "Qcd.C82_d_i_m_0_t_i",
    "Qcd.C82_d_j_m_i",
    "Qcd.C82_d_j_m_l_i",
    "Qcd.C82_d_j_m_t_i",
    "Qcd.C82_d2_j_m_t_i",
    "Qcd.C82_d2_j_m_i",
    "Qcd.C82_d2_j_m_l_i"
   ],
   "note": ""
  },
  {
   "property": "C83",
   "status": "proved",
   "theorems": [
    "Qcd.C83_ghost_self_energy",
    "Qcd.C83_polarization_glue_l",
    "Qcd.C83_polarization_glue_t"
   ],
   "note": ""
  },
  {
   "property": "C84",
   "status": "proved",
   "theorems": [
    "Qcd.C84_quark_l",
    "Qcd.C84_quark_t",
    "Qcd.C84_quark_l_zero_temp",
    "Qcd.C84_quark_t_zero_temp",
    "Qcd.C84_zero_momentum_quark_l",
    "Qcd.C84_zero_momentum_quark_t",
    "Qcd.C84_zero_momentum_quark_l_zero_temp",
    "Qcd.C84_zero_momentum_quark_t_zero_temp"
   ],
   "note": ""
  },
  {
   "property": "C85",
   "status": "proved",
   "theorems": [
    "Qcd.C85_ghost_vacuum",
    "Qcd.C85_ghost_thermal"
   ],
   "note": ""
  },
  {
   "property": "C86",
   "status": "proved",
   "theorems": [
    "Qcd.C86_unique",
    "Qcd.C86_gluon_vacuum",
    "Qcd.C86_ghost_vacuum",
    "Qcd.C86_gluon_thermal"
   ],
   "note": ""
  },
  {
   "property": "C87",
   "status": "proved",
   "theorems": [
    "Qcd.C87_unique",
    "Qcd.C87_quark_loop",
    "Qcd.C87_crossed_quark_loop",
    "Qcd.C87_insertion"
   ],
   "note": ""
  },
  {
   "property": "C88",
   "status": "proved",
   "theorems": [
    "Qcd.C88_vacuum_config",
    "Qcd.C88_vacuum",
    "Qcd.C88_thermal_config",
    "Qcd.C88_zero_temp_config",
    "Qcd.C88_thermal",
    "Qcd.C88_zero_temp"
   ],
   "note": ""
  },
  {
   "property": "C89",
   "status": "proved",
   "theorems": [
    "Qcd.C89_unique",
    "Qcd.C89_gluon_vacuum",
    "Qcd.C89_ghost_vacuum",
    "Qcd.C89_vacuum_config",
    "Qcd.C89_vacuum"
   ],
   "note": ""
  },
  {
   "property": "C90",
   "status": "proved",
   "theorems": [
    "Qcd.C90_ghost_self_energy",
    "Qcd.C90_polarization_glue_l",
    "Qcd.C90_polarization_glue_t",
    "Qcd.C90_d_i_m_m_i_same_mass",
    "Qcd.C90_d_i_m_0_i",
    "Qcd.C90_d_i_m_m_l_i_same_mass",
    "Qcd.C90_d_i_m_0_l_i",
    "Qcd.C90_d_i_m_m_t_i_same_mass",
    "Qcd.C90_d_i_m_0_t_i",
    "Qcd.C90_ghost_thermal",
    "Qcd.C90_gluon_thermal",
    "Qcd.C90_qcd_gluon_config",
    "Qcd.C90_qcd_gluon"
   ],
   "note": ""
  },
  {
   "property": "C91",
   "status": "proved",
   "theorems": [
    "Qcd.C91_static_quark_l",
    "Qcd.C91_static_quark_t",
    "Qcd.C91_static_quark_l_zero_temp",
    "Qcd.C91_static_quark_t_zero_temp"
   ],
   "note": ""
  },
  {
   "property": "C92",
   "status": "proved",
   "theorems": [
    "Qcd.tc.C92_run_propagators",
    "Qcd.tc.C92_program"
   ],
   "note": ""
  },
  {
   "property": "C93",
   "status": "proved",
   "theorems": [
    "Qcd.C93_self_energies_symmetric",
    "Qcd.C93_self_energies_analytic",
    "Qcd.C93_self_energies_zero_momentum_symmetric",
    "Qcd.C93_self_energies_zero_momentum_analytic",
    "Qcd.C93_dressing_inv_ym_symmetric",
    "Qcd.C93_dressing_inv_ym_analytic",
    "Qcd.C93_dressing_inv_qcd_symmetric",
    "Qcd.C93_dressing_inv_qcd_analytic",
    "Qcd.C93_dressing_inv_qcd_zero_temp_symmetric",
    "Qcd.C93_dressing_inv_qcd_zero_temp_analytic",
    "Qcd.C93_dressing_inv_field_config_symmetric",
    "Qcd.C93_dressing_inv_field_config_analytic",
    "Qcd.C93_dressing_inv_field_config_zero_temp_symmetric",
    "Qcd.C93_dressing_inv_field_config_zero_temp_analytic",
    "Qcd.C93_propagators_ym_symmetric",
    "Qcd.C93_propagators_ym_analytic",
    "Qcd.C93_propagators_qcd_symmetric",
    "Qcd.C93_propagators_qcd_analytic",
    "Qcd.C93_propagators_qcd_zero_temp_symmetric",
    "Qcd.C93_propagators_qcd_zero_temp_analytic",
    "Qcd.C93_propagators_field_config_symmetric",
    "Qcd.C93_propagators_field_config_analytic",
    "Qcd.C93_propagators_field_config_zero_temp_symmetric",
    "Qcd.C93_propagators_field_config_zero_temp_analytic",
    "Qcd.C93_exact_integrator"
   ],
   "note": ""
  },
  {
   "property": "C94",
   "status": "proved",
   "theorems": [
    "Qcd.C94_vacuum_residue",
    "Qcd.C94_thermal_residue",
    "Qcd.C94_vacuum",
    "Qcd.C94_thermal",
    "Qcd.C94_program"
   ],
   "note": ""
  },
  {
   "property": "C95",
   "status": "proved",
   "theorems": [
    "Qcd.C95_formulas",
    "Qcd.C95_trace",
    "Qcd.C95_positive",
    "Qcd.C95_limit",
    "Qcd.C95_imaginary",
    "Qcd.C95_program",
    "Qcd.C95_fermion"
   ],
   "note": ""
  },
  {
   "property": "C96",
   "status": "proved",
   "theorems": [
    "Qcd.C96_files",
    "Qcd.C96_plots",
    "Qcd.C96_normalisation",
    "Qcd.C96_real"
   ],
   "note": ""
  },
  {
   "property": "C97",
   "status": "proved",
   "theorems": [
    "Qcd.C97_real_ym",
    "Qcd.C97_entry_points_ym",
    "Qcd.C97_real_qcd",
    "Qcd.C97_entry_points_qcd",
    "Qcd.C97_real_qcd_zero_temp",
    "Qcd.C97_entry_points_qcd_zero_temp",
    "Qcd.C97_real_field_config",
    "Qcd.C97_entry_points_field_config",
    "Qcd.C97_real_field_config_zero_temp",
    "Qcd.C97_entry_points_field_config_zero_temp"
   ],
   "note": ""
  },
  {
   "property": "C98",
   "status": "proved",
   "theorems": [
    "Qcd.C98_htl_l_pos",
    "Qcd.C98_htl_t_pos",
    "Qcd.C98_ghost",
    "Qcd.C98_ghost_dressing",
    "Qcd.C98_glue_l",
    "Qcd.C98_glue_l_zero_matsubara",
    "Qcd.C98_ym_propagator_l",
    "Qcd.C98_ym_static_propagator_l",
    "Qcd.C98_qcd_propagator_l",
    "Qcd.C98_qcd_propagator_l_fixed_mu",
    "Qcd.C98_qcd_static_propagator_l",
    "Qcd.C98_qcd_propagator_l_w_field_config",
    "Qcd.C98_glue_t",
    "Qcd.C98_glue_t_zero_matsubara",
    "Qcd.C98_ym_propagator_t",
    "Qcd.C98_ym_static_propagator_t",
    "Qcd.C98_qcd_propagator_t",
    "Qcd.C98_qcd_propagator_t_fixed_mu",
    "Qcd.C98_qcd_static_propagator_t",
    "Qcd.C98_qcd_propagator_t_w_field_config"
   ],
   "note": ""
  },
  {
   "property": "C99",
   "status": "proved",
   "theorems": [
    "Qcd.C99_quark_l",
    "Qcd.C99_quark_l_zero_temp",
    "Qcd.C99_quark_l_zero_momentum",
    "Qcd.C99_quark_l_zero_momentum_zero_temp",
    "Qcd.C99_qcd_propagator_l",
    "Qcd.C99_qcd_propagator_l_zero_temp",
    "Qcd.C99_qcd_propagator_l_w_field_config",
    "Qcd.C99_quark_t",
    "Qcd.C99_quark_t_zero_temp",
    "Qcd.C99_quark_t_zero_momentum",
    "Qcd.C99_quark_t_zero_momentum_zero_temp",
    "Qcd.C99_qcd_propagator_t",
    "Qcd.C99_qcd_propagator_t_zero_temp",
    "Qcd.C99_qcd_propagator_t_w_field_config"
   ],
   "note": ""
  },
  {
   "property": "C100",
   "status": "proved",
   "theorems": [
    "Qcd.C100_test",
    "Qcd.C100_main",
    "Qcd.C100_plots",
    "Qcd.C100_high_temperature",
    "Qcd.C100_high_density",
    "Qcd.C100_constant",
    "Qcd.C100_agreement"
   ],
   "note": ""
  },
  {
   "property": "C101",
   "status": "proved",
   "theorems": [
    "Qcd.C101_units",
    "Qcd.C101_continuous",
    "Qcd.C101_massless",
    "Qcd.C101_low_temperature",
    "Qcd.C101_high_temperature",
    "Qcd.C101_high_density",
    "Qcd.C101_chemical_potential_exists",
    "Qcd.C101_chemical_potential_bracket",
    "Qcd.C101_chemical_potential_accuracy",
    "Qcd.C101_chemical_potential_low_temperature"
   ],
   "note": ""
  },
  {
   "property": "C102",
   "status": "proved",
   "theorems": [
    "Qcd.C102_density_plots",
    "Qcd.C102_density_curves",
    "Qcd.C102_density_symmetry",
    "Qcd.C102_density_increasing",
    "Qcd.C102_chemical_potential_constants",
    "Qcd.C102_chemical_potential_ends",
    "Qcd.C102_chemical_potential_plots"
   ],
   "note": ""
  },
  {
   "property": "C103",
   "status": "proved",
   "theorems": [
    "Qcd.C103_propagator",
    "Qcd.C103_propagator_low_temperature",
    "Qcd.C103_polarization",
    "Qcd.C103_polarization_low_temperature",
    "Qcd.C103_integrand",
    "Qcd.C103_integrand_low_temperature",
    "Qcd.C103_labels",
    "Qcd.C103_quark_polarization"
   ],
   "note": ""
  },
  {
   "property": "C104",
   "status": "proved",
   "theorems": [
    "Qcd.C104_constants",
    "Qcd.C104_files",
    "Qcd.C104_plot",
    "Qcd.C104_no_quarks",
    "Qcd.C104_shift"
   ],
   "note": ""
  },
  {
   "property": "C105",
   "status": "proved",
   "theorems": [
    "Qcd.C105_tadpoles",
    "Qcd.C105_massless_tadpole",
    "Qcd.C105_logarithms",
    "Qcd.C105_logarithms_masses",
    "Qcd.C105_integrals",
    "Qcd.C105_integrals_derivative",
    "Qcd.C105_integrals_derivative_l",
    "Qcd.C105_zero_momentum",
    "Qcd.C105_expansions",
    "Qcd.C105_ghost",
    "Qcd.C105_glue",
    "Qcd.C105_glue_zero_momentum",
    "Qcd.C105_quark",
    "Qcd.C105_zero_frequency",
    "Qcd.C105_vacuum",
    "Qcd.C105_vacuum_dressing",
    "Qcd.C105_vacuum_real"
   ],
   "note": ""
  },
  {
   "property": "C106",
   "status": "proved",
   "theorems": [
    "Qcd.C106_wrappers",
    "Qcd.C106_wrappers_real",
    "Qcd.C106_conversion",
    "Qcd.C106_conversion_thermal",
    "Qcd.C106_conversion_other"
   ],
   "note": ""
  },
  {
   "property": "C107",
   "status": "proved",
   "theorems": [
    "Qcd.C107_ghost_function",
    "Qcd.C107_ghost",
    "Qcd.C107_gluon_function",
    "Qcd.C107_gluon",
    "Qcd.C107_gluon_poles",
    "Qcd.C107_quark_function",
    "Qcd.C107_qcd"
   ],
   "note": ""
  },
  {
   "property": "C108",
   "status": "proved",
   "theorems": [
    "Qcd.C108_tadpoles",
    "Qcd.C108_diagrams",
    "Qcd.C108_zero_momentum_diagrams",
    "Qcd.C108_parts",
    "Qcd.C108_zero_momentum_parts",
    "Qcd.C108_zero_matsubara_same_mass",
    "Qcd.C108_zero_matsubara_masses",
    "Qcd.C108_zero_matsubara_zero_mass",
    "Qcd.C108_zero_matsubara_parts",
    "Qcd.C108_zero_momentum_undefined",
    "Qcd.C108_zero_matsubara_undefined",
    "Qcd.C108_zero_matsubara_poles",
    "Qcd.C108_zero_matsubara_quark_poles"
   ],
   "note": ""
  },
  {
   "property": "C109",
   "status": "proved",
   "theorems": [
    "Qcd.C109_integrals",
    "Qcd.C109_zero_momentum_integrals",
    "Qcd.C109_zero_matsubara_integrals",
    "Qcd.C109_ym_ghost",
    "Qcd.C109_ym_gluon",
    "Qcd.C109_ym_zero_matsubara_gluon",
    "Qcd.C109_ym_zero_momentum",
    "Qcd.C109_qcd_gluon",
    "Qcd.C109_qcd_gluon_zero_temp",
    "Qcd.C109_qcd_config",
    "Qcd.C109_qcd_config_zero_temp",
    "Qcd.C109_qcd_zero_matsubara_gluon",
    "Qcd.C109_qcd_zero_matsubara_gluon_zero_temp",
    "Qcd.C109_qcd_zero_matsubara_config",
    "Qcd.C109_qcd_zero_matsubara_config_zero_temp",
    "Qcd.C109_qcd_zero_momentum_gluon",
    "Qcd.C109_qcd_zero_momentum_gluon_zero_temp",
    "Qcd.C109_qcd_zero_momentum_config",
    "Qcd.C109_qcd_zero_momentum_config_zero_temp",
    "Qcd.C109_vacuum_loops",
    "Qcd.C109_vacuum_ym",
    "Qcd.C109_vacuum_qcd",
    "Qcd.C109_vacuum_config",
    "Qcd.C109_zero_matsubara_ghost",
    "Qcd.C109_zero_matsubara_ghost_undefined",
    "Qcd.C109_zero_matsubara_ghost_at_two",
    "Qcd.C109_threshold_undefined",
    "Qcd.C109_massless_quark_undefined"
   ],
   "note": ""
  },
  {
   "property": "C110",
   "status": "proved",
   "theorems": [
    "Qcd.build.C110_text",
    "Qcd.build.C110_replaced",
    "Qcd.build.C110_idempotent",
    "Qcd.build.C110_main",
    "Qcd.build.C110_failure"
   ],
   "note": ""
  },
  {
   "property": "C111",
   "status": "proved",
   "theorems": [
    "Qcd.C111_binary64_nearest",
    "Qcd.C111_binary64_fixed",
    "Qcd.C111_binary64_ties",
    "Qcd.C111_binary64_overflow",
    "Qcd.C111_operations",
    "Qcd.C111_special",
    "Qcd.C111_energy",
    "Qcd.C111_energy_even",
    "Qcd.C111_energy_mono",
    "Qcd.C111_fermi_range",
    "Qcd.C111_fermi_mono",
    "Qcd.C111_fermi_zero_chempot",
    "Qcd.C111_fermi_double_range",
    "Qcd.C111_fermi_double_even",
    "Qcd.C111_fermi_zero_temp",
    "Qcd.C111_bose",
    "Qcd.C111_bose_zero_chempot",
    "Qcd.C111_bose_infinite",
    "Qcd.C111_bose_small_energy",
    "Qcd.C111_nan",
    "Qcd.C111_fermi_momentum_nan_iff",
    "Qcd.C111_fermi_momentum_above",
    "Qcd.C111_fermi_momentum_threshold",
    "Qcd.C111_fermi_momentum_tenth",
    "Qcd.C111_fermi_momentum_overflow",
    "Qcd.C111_exact"
   ],
   "note": ""
  },
  {
   "property": "C112",
   "status": "proved",
   "theorems": [
    "Qcd.C112_binary64",
    "Qcd.C112_energy",
    "Qcd.C112_fermi",
    "Qcd.C112_fermi_zero_chempot",
    "Qcd.C112_bose",
    "Qcd.C112_energy_f64",
    "Qcd.C112_fermi_f64",
    "Qcd.C112_bose_f64"
   ],
   "note": ""
  },
  {
   "property": "C113",
   "status": "proved",
   "theorems": [
    "Qcd.C113_points",
    "Qcd.C113_real",
    "Qcd.C113_complex",
    "Qcd.C113_units",
    "Qcd.C113_spectral"
   ],
   "note": ""
  },
  {
   "property": "C114",
   "status": "proved",
   "theorems": [
    "Qcd.C114_ghost",
    "Qcd.C114_ghost_exact",
    "Qcd.C114_gluon",
    "Qcd.C114_gluon_exact"
   ],
   "note": ""
  },
  {
   "property": "C115",
   "status": "proved",
   "theorems": [
    "Qcd.C115_functions",
    "Qcd.C115_dressing_inv",
    "Qcd.C115_decimals",
    "Qcd.C115_propagators"
   ],
   "note": ""
  },
  {
   "property": "C116",
   "status": "proved",
   "theorems": [
    "Qcd.C116_panics",
    "Qcd.C116_small",
    "Qcd.C116_default"
   ],
   "note": ""
  },
  {
   "property": "C117",
   "status": "proved",
   "theorems": [
    "Qcd.C117_ym_ghost",
    "Qcd.C117_ym_gluon",
    "Qcd.C117_ym_zero_momentum",
    "Qcd.C117_ym_zero_matsubara",
    "Qcd.C117_qcd",
    "Qcd.C117_qcd_zero_momentum",
    "Qcd.C117_qcd_zero_matsubara"
   ],
   "note": ""
  },
  {
   "property": "C118",
   "status": "proved",
   "theorems": [
    "Qcd.C118_panics",
    "Qcd.C118_sound",
    "Qcd.C118_finite",
    "Qcd.C118_not_finite",
    "Qcd.C118_flat",
    "Qcd.C118_overflow",
    "Qcd.C118_step",
    "Qcd.C118_bracketed"
   ],
   "note": ""
  },
  {
   "property": "C119",
   "status": "proved",
   "theorems": [
    "Qcd.C119_threshold",
    "Qcd.C119_density",
    "Qcd.C119_odd",
    "Qcd.C119_potential_zero",
    "Qcd.C119_potential",
    "Qcd.C119_lost",
    "Qcd.C119_potential_odd"
   ],
   "note": ""
  },
  {
   "property": "C120",
   "status": "proved",
   "theorems": [
    "Qcd.C120_phase_panics",
    "Qcd.C120_phase",
    "Qcd.C120_phase_nan",
    "Qcd.C120_fit",
    "Qcd.C120_grid",
    "Qcd.C120_grid_increasing",
    "Qcd.C120_grid_nan",
    "Qcd.C120_grid_zero_step",
    "Qcd.C120_grid_too_long"
   ],
   "note": ""
  },
  {
   "property": "C121",
   "status": "proved",
   "theorems": [
    "Qcd.C121_schedule",
    "Qcd.C121_ends",
    "Qcd.C121_functions",
    "Qcd.C121_charge_density",
    "Qcd.C121_charge_density_zero_temp",
    "Qcd.C121_chemical_potential_zero_temp",
    "Qcd.C121_chemical_potential",
    "Qcd.C121_setters",
    "Qcd.C121_torn",
    "Qcd.C121_wrong_colors"
   ],
   "note": ""
  },
  {
   "property": "C122",
   "status": "proved",
   "theorems": [
    "Qcd.C122_reciprocal",
    "Qcd.C122_complex",
    "Qcd.C122_real",
    "Qcd.C122_pole",
    "Qcd.C122_accuracy",
    "Qcd.C122_loss"
   ],
   "note": ""
  },
  {
   "property": "C123",
   "status": "proved",
   "theorems": [
    "Qcd.C123_finite",
    "Qcd.C123_mono",
    "Qcd.C123_odd",
    "Qcd.C123_nan",
    "Qcd.C123_absorbed",
    "Qcd.C123_zero",
    "Qcd.C123_lost",
    "Qcd.C123_accuracy",
    "Qcd.C123_integrand_accuracy"
   ],
   "note": ""
  },
  {
   "property": "C124",
   "status": "proved",
   "theorems": [
    "Qcd.C124_models_agree",
    "Qcd.C124_field_config",
    "Qcd.C124_very_light",
    "Qcd.C124_global",
    "Qcd.C124_propagator",
    "Qcd.C124_chiral_limit"
   ],
   "note": ""
  },
  {
   "property": "C125",
   "status": "proved",
   "theorems": [
    "Qcd.C125_elementary",
    "Qcd.C125_functions",
    "Qcd.C125_dressing_inv",
    "Qcd.C125_conjugate",
    "Qcd.C125_dressing_conjugate",
    "Qcd.C125_real_axis",
    "Qcd.C125_cut",
    "Qcd.C125_cut_sqrt",
    "Qcd.C125_imaginary_root",
    "Qcd.C125_negation",
    "Qcd.C125_propagators"
   ],
   "note": ""
  },
  {
   "property": "C126",
   "status": "proved",
   "theorems": [
    "Qcd.C126_conjugate",
    "Qcd.C126_inverses",
    "Qcd.C126_propagators",
    "Qcd.C126_propagators_finite",
    "Qcd.C126_spectral",
    "Qcd.C126_propagator_spectral",
    "Qcd.C126_propagator_spectral_finite"
   ],
   "note": ""
  },
  {
   "property": "C127",
   "status": "proved",
   "theorems": [
    "Qcd.C127_inverses",
    "Qcd.C127_propagators",
    "Qcd.C127_global_inverses",
    "Qcd.C127_global_propagators",
    "Qcd.C127_spectral",
    "Qcd.C127_propagator_spectral",
    "Qcd.C127_global_spectral",
    "Qcd.C127_accuracy",
    "Qcd.C127_sums",
    "Qcd.C127_global_accuracy"
   ],
   "note": ""
  },
  {
   "property": "C128",
   "status": "proved",
   "theorems": [
    "Qcd.C128_massless",
    "Qcd.C128_massive",
    "Qcd.C128_infinite",
    "Qcd.C128_zero",
    "Qcd.C128_massless_accuracy",
    "Qcd.C128_massive_accuracy",
    "Qcd.C128_massless_exact",
    "Qcd.C128_massive_exact",
    "Qcd.C128_wrong_sign",
    "Qcd.C128_massive_infinite",
    "Qcd.C128_massless_energy",
    "Qcd.C128_zero_mass"
   ],
   "note": ""
  }
 ]
}