'TadDftd4.Alias.C79_fixed_false' depends on axioms: [propext, Classical.choice, Quot.sound]
'TadDftd4.Alias.C79_fixed_partial' depends on axioms: [propext, Classical.choice, Quot.sound]
'TadDftd4.Alias.C79_rebuilt' depends on axioms: [propext, Classical.choice, Quot.sound]
'TadDftd4.Alias.C79_settings' depends on axioms: [propext, Classical.choice, Quot.sound]
'TadDftd4.C01_dftd4_energy' depends on axioms: [propext, Classical.choice, Quot.sound]
'TadDftd4.C01_dftd4_energy_default' depends on axioms: [propext, Classical.choice, Quot.sound]
'TadDftd4.C01_dftd4_textbook' depends on axioms: [propext, Classical.choice, Quot.sound]
'TadDftd4.C02_any_disp' depends on axioms: [propext, Classical.choice, Quot.sound]
'TadDftd4.C02_relabelling' depends on axioms: [propext, Classical.choice, Quot.sound]
'TadDftd4.C03_any_disp' depends on axioms: [propext, Classical.choice, Quot.sound]
'TadDftd4.C03_isometry' depends on axioms: [propext, Classical.choice, Quot.sound]
'TadDftd4.C03_rigid_motion' depends on axioms: [propext, Classical.choice, Quot.sound]
'TadDftd4.C04_any_disp' depends on axioms: [propext, Classical.choice, Quot.sound]
'TadDftd4.C04_padding' depends on axioms: [propext, Classical.choice, Quot.sound]
'TadDftd4.C04_padding_zero' depends on axioms: [propext, Classical.choice, Quot.sound]
'TadDftd4.C05_any_disp' depends on axioms: [propext, Classical.choice, Quot.sound]
'TadDftd4.C05_batch_independence' depends on axioms: [propext, Classical.choice, Quot.sound]
'TadDftd4.C06_any_disp' depends on axioms: [propext, Classical.choice, Quot.sound]
'TadDftd4.C06_no_exception' depends on axioms: [propext, Classical.choice, Quot.sound]
'TadDftd4.C06_no_exception_shipped' depends on axioms: [propext, Classical.choice, Quot.sound]
'TadDftd4.C07_matrix' depends on axioms: [propext, Classical.choice, Quot.sound]
'TadDftd4.C07_rvdw_optional' depends on axioms: [propext, Classical.choice, Quot.sound]
'TadDftd4.C07_rvdw_required' depends on axioms: [propext, Classical.choice, Quot.sound]
'TadDftd4.C08_attractive' depends on axioms: [propext, Classical.choice, Quot.sound]
'TadDftd4.C08_dftd4' depends on axioms: [propext, Classical.choice, Quot.sound]
'TadDftd4.C08_monotone' depends on axioms: [propext, Classical.choice, Quot.sound]
'TadDftd4.C09_beyond' depends on axioms: [propext, Classical.choice, Quot.sound]
'TadDftd4.C09_default' depends on axioms: [propext, Classical.choice, Quot.sound]
'TadDftd4.C09_value' depends on axioms: [propext, Classical.choice, Quot.sound]
'TadDftd4.C09_within' depends on axioms: [propext, Classical.choice, Quot.sound]
'TadDftd4.C10_all_sides_false' depends on axioms: [propext, Classical.choice, Quot.sound]
'TadDftd4.C10_all_sides_partial' depends on axioms: [propext, Classical.choice, Quot.sound]
'TadDftd4.C10_inclusive_partial' depends on axioms: [propext, Classical.choice, Quot.sound]
'TadDftd4.C10_total_partial' depends on axioms: [propext, Classical.choice, Quot.sound]
'TadDftd4.C10_two_sides_partial' depends on axioms: [propext, Classical.choice, Quot.sound]
'TadDftd4.C11_energy' depends on axioms: [propext, Classical.choice, Quot.sound]
'TadDftd4.C12_atom' depends on axioms: [propext, Classical.choice, Quot.sound]
'TadDftd4.C12_few_atoms' depends on axioms: [propext, Classical.choice, Quot.sound]
'TadDftd4.C12_total' depends on axioms: [propext, Classical.choice, Quot.sound]
'TadDftd4.C13_any_disp' depends on axioms: [propext, Classical.choice, Quot.sound]
'TadDftd4.C13_dftd4' depends on axioms: [propext, Classical.choice, Quot.sound]
'TadDftd4.C13_three_body' depends on axioms: [propext, Classical.choice, Quot.sound]
'TadDftd4.C13_two_body' depends on axioms: [propext, Classical.choice, Quot.sound]
'TadDftd4.C14_d4' depends on axioms: [propext, Classical.choice, Quot.sound]
'TadDftd4.C14_d4_underflow' depends on axioms: [propext, Classical.choice, Quot.sound]
'TadDftd4.C14_d4s' depends on axioms: [propext, Classical.choice, Quot.sound]
'TadDftd4.C14_d4s_underflow' depends on axioms: [propext, Classical.choice, Quot.sound]
'TadDftd4.C14_observable' depends on axioms: [propext, Classical.choice, Quot.sound]
'TadDftd4.C14_padding' depends on axioms: [propext, Classical.choice, Quot.sound]
'TadDftd4.C15_bounds' depends on axioms: [propext, Classical.choice, Quot.sound]
'TadDftd4.C15_decreasing_false' depends on axioms: [propext, Classical.choice, Quot.sound]
'TadDftd4.C15_decreasing_partial' depends on axioms: [propext, Classical.choice, Quot.sound]
'TadDftd4.C15_no_hardness' depends on axioms: [propext, Classical.choice, Quot.sound]
'TadDftd4.C15_nonpositive' depends on axioms: [propext, Classical.choice, Quot.sound]
'TadDftd4.C15_reference' depends on axioms: [propext, Classical.choice, Quot.sound]
'TadDftd4.C15_reference_shifted' depends on axioms: [propext, Classical.choice, Quot.sound]
'TadDftd4.C15_strict' depends on axioms: [propext, Classical.choice, Quot.sound]
'TadDftd4.C15_tensor' depends on axioms: [propext, Classical.choice, Quot.sound]
'TadDftd4.C16_cauchy_schwarz' depends on axioms: [propext, Classical.choice, Quot.sound]
'TadDftd4.C16_nonneg' depends on axioms: [propext, Classical.choice, Quot.sound]
'TadDftd4.C16_positive' depends on axioms: [propext, Classical.choice, Quot.sound]
'TadDftd4.C16_positive_shipped' depends on axioms: [propext, Classical.choice, Quot.sound]
'TadDftd4.C16_psd' depends on axioms: [propext, Classical.choice, Quot.sound]
'TadDftd4.C16_symmetric' depends on axioms: [propext, Classical.choice, Quot.sound]
'TadDftd4.C16_weights_nonneg' depends on axioms: [propext, Classical.choice, Quot.sound]
'TadDftd4.C17_d4' depends on axioms: [propext, Classical.choice, Quot.sound]
'TadDftd4.C17_d4s_batch_error' depends on axioms: [propext, Classical.choice, Quot.sound]
'TadDftd4.C17_d4s_false' depends on axioms: [propext, Classical.choice, Quot.sound]
'TadDftd4.C17_d4s_mean_partial' depends on axioms: [propext, Classical.choice, Quot.sound]
'TadDftd4.C17_d4s_static_shape' depends on axioms: [propext, Classical.choice, Quot.sound]
'TadDftd4.C17_static' depends on axioms: [propext, Classical.choice, Quot.sound]
'TadDftd4.C18_c6' depends on axioms: [propext, Classical.choice, Quot.sound]
'TadDftd4.C18_debug' depends on axioms: [propext, Classical.choice, Quot.sound]
'TadDftd4.C18_weights' depends on axioms: [propext, Classical.choice, Quot.sound]
'TadDftd4.C19_d4' depends on axioms: [propext, Classical.choice, Quot.sound]
'TadDftd4.C19_d4s' depends on axioms: [propext, Classical.choice, Quot.sound]
'TadDftd4.C19_factor' depends on axioms: [propext, Classical.choice, Quot.sound]
'TadDftd4.C19_local' depends on axioms: [propext, Classical.choice, Quot.sound]
'TadDftd4.C20_derivative_false' depends on axioms: [propext, Classical.choice, Quot.sound]
'TadDftd4.C20_negative_partial' depends on axioms: [propext, Classical.choice, Quot.sound]
'TadDftd4.C21_exact' depends on axioms: [propext, Classical.choice, Quot.sound]
'TadDftd4.C21_length' depends on axioms: [propext, Classical.choice, Quot.sound]
'TadDftd4.C21_one_argument' depends on axioms: [propext, Classical.choice, Quot.sound]
'TadDftd4.C21_positive' depends on axioms: [propext, Classical.choice, Quot.sound]
'TadDftd4.C21_rule' depends on axioms: [propext, Classical.choice, Quot.sound]
'TadDftd4.C21_trapzd' depends on axioms: [propext, Classical.choice, Quot.sound]
'TadDftd4.C21_trapzd_atm' depends on axioms: [propext, Classical.choice, Quot.sound]
'TadDftd4.C21_trapzd_noref' depends on axioms: [propext, Classical.choice, Quot.sound]
'TadDftd4.C22_bounds' depends on axioms: [propext, Classical.choice, Quot.sound]
'TadDftd4.C22_decreasing' depends on axioms: [propext, Classical.choice, Quot.sound]
'TadDftd4.C22_formula' depends on axioms: [propext, Classical.choice, Quot.sound]
'TadDftd4.C22_long_range' depends on axioms: [propext, Classical.choice, Quot.sound]
'TadDftd4.C22_pair_energy' depends on axioms: [propext, Classical.choice, Quot.sound]
'TadDftd4.C22_undamped' depends on axioms: [propext, Classical.choice, Quot.sound]
'TadDftd4.C23_pair_energy_partial' depends on axioms: [propext, Classical.choice, Quot.sound]
'TadDftd4.C23_spec_increasing' depends on axioms: [propext, Classical.choice, Quot.sound]
'TadDftd4.C23_spec_long' depends on axioms: [propext, Classical.choice, Quot.sound]
'TadDftd4.C23_spec_short' depends on axioms: [propext, Classical.choice, Quot.sound]
'TadDftd4.C23_threebody' depends on axioms: [propext, Classical.choice, Quot.sound]
'TadDftd4.C23_threebody_increasing' depends on axioms: [propext, Classical.choice, Quot.sound]
'TadDftd4.C23_threebody_long' depends on axioms: [propext, Classical.choice, Quot.sound]
'TadDftd4.C23_twobody_decreasing' depends on axioms: [propext, Classical.choice, Quot.sound]
'TadDftd4.C23_twobody_false' depends on axioms: [propext, Classical.choice, Quot.sound]
'TadDftd4.C23_twobody_partial' depends on axioms: [propext, Classical.choice, Quot.sound]
'TadDftd4.C24_bounded_false' depends on axioms: [propext, Classical.choice, Quot.sound]
'TadDftd4.C24_bounded_partial' depends on axioms: [propext, Classical.choice, Quot.sound]
'TadDftd4.C24_diverges' depends on axioms: [propext, Classical.choice, Quot.sound]
'TadDftd4.C24_formula_partial' depends on axioms: [propext, Classical.choice, Quot.sound]
'TadDftd4.C24_long_range' depends on axioms: [propext, Classical.choice, Quot.sound]
'TadDftd4.C24_spec_bounded' depends on axioms: [propext, Classical.choice, Quot.sound]
'TadDftd4.C25_bounds' depends on axioms: [propext, Classical.choice, Quot.sound]
'TadDftd4.C25_formula' depends on axioms: [propext, Classical.choice, Quot.sound]
'TadDftd4.C25_increasing' depends on axioms: [propext, Classical.choice, Quot.sound]
'TadDftd4.C25_long_range' depends on axioms: [propext, Classical.choice, Quot.sound]
'TadDftd4.C26_nonzero' depends on axioms: [propext, Classical.choice, Quot.sound]
'TadDftd4.C26_outcome' depends on axioms: [propext, Classical.choice, Quot.sound]
'TadDftd4.C26_param' depends on axioms: [propext, Classical.choice, Quot.sound]
'TadDftd4.C26_type' depends on axioms: [propext, Classical.choice, Quot.sound]
'TadDftd4.C26_unknown' depends on axioms: [propext, Classical.choice, Quot.sound]
'TadDftd4.C26_value_false' depends on axioms: [propext, Classical.choice, Quot.sound]
'TadDftd4.C26_value_partial' depends on axioms: [propext, Classical.choice, Quot.sound]
'TadDftd4.C26_zeros' depends on axioms: [propext, Classical.choice, Quot.sound]
'TadDftd4.C26_zeros_iff' depends on axioms: [propext, Classical.choice, Quot.sound]
'TadDftd4.C27_alp' depends on axioms: [propext, Classical.choice, Quot.sound]
'TadDftd4.C27_rs9' depends on axioms: [propext, Classical.choice, Quot.sound]
'TadDftd4.C27_s10' depends on axioms: [propext, Classical.choice, Quot.sound]
'TadDftd4.C27_s10_zero' depends on axioms: [propext, Classical.choice, Quot.sound]
'TadDftd4.C27_s6' depends on axioms: [propext, Classical.choice, Quot.sound]
'TadDftd4.C27_s8_false' depends on axioms: [propext, Classical.choice, Quot.sound]
'TadDftd4.C27_s8_missing' depends on axioms: [propext, Classical.choice, Quot.sound]
'TadDftd4.C27_s8_partial' depends on axioms: [propext, Classical.choice, Quot.sound]
'TadDftd4.C27_s9' depends on axioms: [propext, Classical.choice, Quot.sound]
'TadDftd4.C28_any_damping' depends on axioms: [propext, Classical.choice, Quot.sound]
'TadDftd4.C28_linear' depends on axioms: [propext, Classical.choice, Quot.sound]
'TadDftd4.C29_case' depends on axioms: [propext, Classical.choice, Quot.sound]
'TadDftd4.C29_case_false' depends on axioms: [propext, Classical.choice, Quot.sound]
'TadDftd4.C29_default_false' depends on axioms: [propext, Classical.choice, Quot.sound]
'TadDftd4.C29_default_none' depends on axioms: [propext, Classical.choice, Quot.sound]
'TadDftd4.C29_default_partial' depends on axioms: [propext, Classical.choice, Quot.sound]
'TadDftd4.C29_functional_partial' depends on axioms: [propext, Classical.choice, Quot.sound]
'TadDftd4.C29_no_file' depends on axioms: [propext, Classical.choice, Quot.sound]
'TadDftd4.C30_independent' depends on axioms: [propext, Classical.choice, Quot.sound]
'TadDftd4.C30_like_first' depends on axioms: [propext, Classical.choice, Quot.sound]
'TadDftd4.C30_no_interference' depends on axioms: [propext, Classical.choice, Quot.sound]
'TadDftd4.C30_read_once' depends on axioms: [propext, Classical.choice, Quot.sound]
'TadDftd4.C30_separate' depends on axioms: [propext]
'TadDftd4.C31_d3_alp' depends on axioms: [propext, Classical.choice, Quot.sound]
'TadDftd4.C31_d3_bj_partial' depends on axioms: [propext, Classical.choice, Quot.sound]
'TadDftd4.C31_d3_zero' depends on axioms: [propext, Classical.choice, Quot.sound]
'TadDftd4.C31_d3_zero_partial' depends on axioms: [propext, Classical.choice, Quot.sound]
'TadDftd4.C31_d4_partial' depends on axioms: [propext, Classical.choice, Quot.sound]
'TadDftd4.C31_default_false' depends on axioms: [propext, Classical.choice, Quot.sound]
'TadDftd4.C31_default_never' depends on axioms: [propext, Classical.choice, Quot.sound]
'TadDftd4.C31_extra_never' depends on axioms: [propext, Classical.choice, Quot.sound]
'TadDftd4.C31_zero_never' depends on axioms: [propext, Classical.choice, Quot.sound]
'TadDftd4.C32_cn_scalar' depends on axioms: [propext, Classical.choice, Quot.sound]
'TadDftd4.C32_cn_scalar_d4s' depends on axioms: [propext, Classical.choice, Quot.sound]
'TadDftd4.C32_cn_shared' depends on axioms: [propext, Classical.choice, Quot.sound]
'TadDftd4.C32_cn_shared_dftd4' depends on axioms: [propext, Classical.choice, Quot.sound]
'TadDftd4.C32_coordinates' depends on axioms: [propext, Classical.choice, Quot.sound]
'TadDftd4.C32_outcome' depends on axioms: [propext, Classical.choice, Quot.sound]
'TadDftd4.C32_positions' depends on axioms: [propext, Classical.choice, Quot.sound]
'TadDftd4.C32_sum' depends on axioms: [propext, Classical.choice, Quot.sound]
'TadDftd4.C32_term_error' depends on axioms: [propext, Classical.choice, Quot.sound]
'TadDftd4.C33_d3' depends on axioms: [propext, Classical.choice, Quot.sound]
'TadDftd4.C33_explicit' depends on axioms: [propext, Classical.choice, Quot.sound]
'TadDftd4.C33_explicit_dftd4' depends on axioms: [propext, Classical.choice, Quot.sound]
'TadDftd4.C33_given' depends on axioms: [propext, Classical.choice, Quot.sound]
'TadDftd4.C33_given_dftd4' depends on axioms: [propext, Classical.choice, Quot.sound]
'TadDftd4.C33_threebody' depends on axioms: [propext, Classical.choice, Quot.sound]
'TadDftd4.C33_unused' depends on axioms: [propext, Classical.choice, Quot.sound]
'TadDftd4.C34_attributes' depends on axioms: [propext, Classical.choice, Quot.sound]
'TadDftd4.C34_deregister' depends on axioms: [propext, Classical.choice, Quot.sound]
'TadDftd4.C34_energy' depends on axioms: [propext, Classical.choice, Quot.sound]
'TadDftd4.C34_history' depends on axioms: [propext, Classical.choice, Quot.sound]
'TadDftd4.C34_new' depends on axioms: [propext, Classical.choice, Quot.sound]
'TadDftd4.C34_undo' depends on axioms: [propext, Classical.choice, Quot.sound]
'TadDftd4.C35_accept' depends on axioms: [propext, Classical.choice, Quot.sound]
'TadDftd4.C35_d3_never' depends on axioms: [propext, Classical.choice, Quot.sound]
'TadDftd4.C35_d5_never' depends on axioms: [propext, Classical.choice, Quot.sound]
'TadDftd4.C35_default_cn' depends on axioms: [propext, Classical.choice, Quot.sound]
'TadDftd4.C35_instance' depends on axioms: [propext, Classical.choice, Quot.sound]
'TadDftd4.C35_restrict_false' depends on axioms: [propext, Classical.choice, Quot.sound]
'TadDftd4.C35_usable_false' depends on axioms: [propext, Classical.choice, Quot.sound]
'TadDftd4.C35_usable_partial' depends on axioms: [propext, Classical.choice, Quot.sound]
'TadDftd4.C36_cn_eeq' depends on axioms: [propext, Classical.choice, Quot.sound]
'TadDftd4.C36_cn_false' depends on axioms: [propext, Classical.choice, Quot.sound]
'TadDftd4.C36_cn_ignored' depends on axioms: [propext, Classical.choice, Quot.sound]
'TadDftd4.C36_isolated' depends on axioms: [propext, Classical.choice, Quot.sound]
'TadDftd4.C36_isolated_dftd4' depends on axioms: [propext, Classical.choice, Quot.sound]
'TadDftd4.C36_only' depends on axioms: [propext, Classical.choice, Quot.sound]
'TadDftd4.C36_properties' depends on axioms: [propext, Classical.choice, Quot.sound]
'TadDftd4.C36_within' depends on axioms: [propext, Classical.choice, Quot.sound]
'TadDftd4.C37_c6' depends on axioms: [propext, Classical.choice, Quot.sound]
'TadDftd4.C37_cn_q' depends on axioms: [propext, Classical.choice, Quot.sound]
'TadDftd4.C37_polarizabilities' depends on axioms: [propext, Classical.choice, Quot.sound]
'TadDftd4.C37_shapes' depends on axioms: [propext, Classical.choice, Quot.sound]
'TadDftd4.C38_alpha' depends on axioms: [propext, Classical.choice, Quot.sound]
'TadDftd4.C38_consistent' depends on axioms: [propext, Classical.choice, Quot.sound]
'TadDftd4.C39_debug' depends on axioms: [propext, Classical.choice, Quot.sound]
'TadDftd4.C39_debug_error' depends on axioms: [propext, Classical.choice, Quot.sound]
'TadDftd4.C39_debug_false' depends on axioms: [propext, Classical.choice, Quot.sound]
'TadDftd4.C39_square_batch' depends on axioms: [propext, Classical.choice, Quot.sound]
'TadDftd4.C39_static_false' depends on axioms: [propext, Classical.choice, Quot.sound]
'TadDftd4.C39_static_never' depends on axioms: [propext, Classical.choice, Quot.sound]
'TadDftd4.C39_weighted_pols_false' depends on axioms: [propext, Classical.choice, Quot.sound]
'TadDftd4.C39_weighted_pols_iff' depends on axioms: [propext, Classical.choice, Quot.sound]
'TadDftd4.C39_weighted_pols_single' depends on axioms: [propext, Classical.choice, Quot.sound]
'TadDftd4.C40_calculate' depends on axioms: [propext, Classical.choice, Quot.sound]
'TadDftd4.C40_call' depends on axioms: [propext, Classical.choice, Quot.sound]
'TadDftd4.C40_dftd4' depends on axioms: [propext, Classical.choice, Quot.sound]
'TadDftd4.C40_doi_atm' depends on axioms: [propext, Classical.choice, Quot.sound]
'TadDftd4.C40_doi_call' depends on axioms: [propext, Classical.choice, Quot.sound]
'TadDftd4.C40_doi_dftd4' depends on axioms: [propext, Classical.choice, Quot.sound]
'TadDftd4.C40_doi_twobody' depends on axioms: [propext, Classical.choice, Quot.sound]
'TadDftd4.C40_histories' depends on axioms: [propext, Classical.choice, Quot.sound]
'TadDftd4.C41_approx' depends on axioms: [propext, Classical.choice, Quot.sound]
'TadDftd4.C41_exact' depends on axioms: [propext, Classical.choice, Quot.sound]
'TadDftd4.C41_exact_d4s' depends on axioms: [propext, Classical.choice, Quot.sound]
'TadDftd4.C42_forces_sum_zero' depends on axioms: [propext, Classical.choice, Quot.sound]
'TadDftd4.C42_padding_force_zero' depends on axioms: [propext, Classical.choice, Quot.sound]
'TadDftd4.C42_smooth' depends on axioms: [propext, Classical.choice, Quot.sound]
'TadDftd4.C42_torque_zero' depends on axioms: [propext, Classical.choice, Quot.sound]
'TadDftd4.C45_c6' depends on axioms: [propext, Classical.choice, Quot.sound]
'TadDftd4.C45_energy' depends on axioms: [propext, Classical.choice, Quot.sound]
'TadDftd4.C46_dftd4' depends on axioms: [propext, Classical.choice, Quot.sound]
'TadDftd4.C46_no_threebody' depends on axioms: [propext, Classical.choice, Quot.sound]
'TadDftd4.C47_objects_checked_false' depends on axioms: [propext, Classical.choice, Quot.sound]
'TadDftd4.C47_other_atoms' depends on axioms: [propext, Classical.choice, Quot.sound]
'TadDftd4.C47_own_atoms_partial' depends on axioms: [propext, Classical.choice, Quot.sound]
'TadDftd4.C48_always_finite_false' depends on axioms: [propext, Classical.choice, Quot.sound]
'TadDftd4.C48_finite_partial' depends on axioms: [propext, Classical.choice, Quot.sound]
'TadDftd4.C48_forces_partial' depends on axioms: [propext, Classical.choice, Quot.sound]
'TadDftd4.C48_forward' depends on axioms: [propext, Classical.choice, Quot.sound]
'TadDftd4.C48_underflow_nan' depends on axioms: [propext, Classical.choice, Quot.sound]
'TadDftd4.C49_defaults' depends on axioms: [propext, Classical.choice, Quot.sound]
'TadDftd4.C49_energy_partial' depends on axioms: [propext, Classical.choice, Quot.sound]
'TadDftd4.C49_gfn2_heavy' depends on axioms: [propext, Classical.choice, Quot.sound]
'TadDftd4.C49_instance_ignores' depends on axioms: [propext, Classical.choice, Quot.sound]
'TadDftd4.C49_keywords_reach_partial' depends on axioms: [propext, Classical.choice, Quot.sound]
'TadDftd4.C49_unknown_charges' depends on axioms: [propext, Classical.choice, Quot.sound]
'TadDftd4.C49_unknown_keyword' depends on axioms: [propext, Classical.choice, Quot.sound]
'TadDftd4.C49_wf_number_false' depends on axioms: [propext, Classical.choice, Quot.sound]
'TadDftd4.C51_forward' depends on axioms: [propext, Classical.choice, Quot.sound]
'TadDftd4.C51_gradient' depends on axioms: [propext, Classical.choice, Quot.sound]
'TadDftd4.C51_loss' depends on axioms: [propext, Classical.choice, Quot.sound]
'TadDftd4.C51_smooth' depends on axioms: [propext, Classical.choice, Quot.sound]
'TadDftd4.C52_error' depends on axioms: [propext, Classical.choice, Quot.sound]
'TadDftd4.C52_inside' depends on axioms: [propext, Classical.choice, Quot.sound]
'TadDftd4.C53_atm' depends on axioms: [propext, Classical.choice, Quot.sound]
'TadDftd4.C53_disp' depends on axioms: [propext, Classical.choice, Quot.sound]
'TadDftd4.C53_ignored' depends on axioms: [propext, Classical.choice, Quot.sound]
'TadDftd4.C53_only_damping_false' depends on axioms: [propext, Classical.choice, Quot.sound]
'TadDftd4.C53_zero_partial' depends on axioms: [propext, Classical.choice, Quot.sound]
'TadDftd4.C54_call' depends on axioms: [propext, Classical.choice, Quot.sound]
'TadDftd4.C54_created' depends on axioms: [propext, Classical.choice, Quot.sound]
'TadDftd4.C54_instances' depends on axioms: [propext, Classical.choice, Quot.sound]
'TadDftd4.C54_own_false' depends on axioms: [propext, Classical.choice, Quot.sound]
'TadDftd4.C54_own_partial' depends on axioms: [propext, Classical.choice, Quot.sound]
'TadDftd4.C54_package' depends on axioms: [propext, Classical.choice, Quot.sound]
'TadDftd4.C54_rejected' depends on axioms: [propext, Classical.choice, Quot.sound]
'TadDftd4.C54_run' depends on axioms: [propext, Classical.choice, Quot.sound]
'TadDftd4.C55_exists' depends on axioms: [propext, Classical.choice, Quot.sound]
'TadDftd4.C55_padding' depends on axioms: [propext, Classical.choice, Quot.sound]
'TadDftd4.C55_rotation' depends on axioms: [propext, Classical.choice, Quot.sound]
'TadDftd4.C55_rotation_mode' depends on axioms: [propext, Classical.choice, Quot.sound]
'TadDftd4.C55_symmetric' depends on axioms: [propext, Classical.choice, Quot.sound]
'TadDftd4.C55_translation' depends on axioms: [propext, Classical.choice, Quot.sound]
'TadDftd4.C56_c6' depends on axioms: [propext, Classical.choice, Quot.sound]
'TadDftd4.C56_d4' depends on axioms: [propext, Classical.choice, Quot.sound]
'TadDftd4.C56_d4s' depends on axioms: [propext, Classical.choice, Quot.sound]
'TadDftd4.C56_single_range' depends on axioms: [propext, Classical.choice, Quot.sound]
'TadDftd4.C56_weights' depends on axioms: [propext, Classical.choice, Quot.sound]
'TadDftd4.C57_distance' depends on axioms: [propext, Classical.choice, Quot.sound]
'TadDftd4.C57_energy' depends on axioms: [propext, Classical.choice, Quot.sound]
'TadDftd4.C57_far' depends on axioms: [propext, Classical.choice, Quot.sound]
'TadDftd4.C57_machine' depends on axioms: [propext, Classical.choice, Quot.sound]
'TadDftd4.C57_twobody' depends on axioms: [propext, Classical.choice, Quot.sound]
'TadDftd4.C58_accepted' depends on axioms: [propext, Quot.sound]
'TadDftd4.C58_accepted_zero' depends on axioms: [propext, Quot.sound]
'TadDftd4.C58_d3' depends on axioms: [propext, Classical.choice, Quot.sound]
'TadDftd4.C58_d4' depends on axioms: [propext, Classical.choice, Quot.sound]
'TadDftd4.C58_default' depends on axioms: [propext, Classical.choice, Quot.sound]
'TadDftd4.C58_energy' depends on axioms: [propext, Classical.choice, Quot.sound]
'TadDftd4.C58_same_false' depends on axioms: [propext, Classical.choice, Quot.sound]
'TadDftd4.C58_same_partial' depends on axioms: [propext, Classical.choice, Quot.sound]
'TadDftd4.C58_threebody' depends on axioms: [propext, Classical.choice, Quot.sound]
'TadDftd4.C59_dimer' depends on axioms: [propext, Classical.choice, Quot.sound]
'TadDftd4.C59_energy' depends on axioms: [propext, Classical.choice, Quot.sound]
'TadDftd4.C59_weaker' depends on axioms: [propext, Classical.choice, Quot.sound]
'TadDftd4.C60_always_finite_false' depends on axioms: [propext, Classical.choice, Quot.sound]
'TadDftd4.C60_gradient_nan' depends on axioms: [propext, Classical.choice, Quot.sound]
'TadDftd4.C60_gradient_nonneg' depends on axioms: [propext, Classical.choice, Quot.sound]
'TadDftd4.C60_gradient_partial' depends on axioms: [propext, Classical.choice, Quot.sound]
'TadDftd4.C60_monotone' depends on axioms: [propext, Classical.choice, Quot.sound]
'TadDftd4.C60_padding' depends on axioms: [propext, Classical.choice, Quot.sound]
'TadDftd4.C60_strict' depends on axioms: [propext, Classical.choice, Quot.sound]
'TadDftd4.C61_finite' depends on axioms: [propext, Classical.choice, Quot.sound]
'TadDftd4.C61_hessian' depends on axioms: [propext, Classical.choice, Quot.sound]
'TadDftd4.C61_symmetric' depends on axioms: [propext, Classical.choice, Quot.sound]
'TadDftd4.C61_zero_modes' depends on axioms: [propext, Classical.choice, Quot.sound]
'TadDftd4.C62_d3bj' depends on axioms: [propext, Classical.choice, Quot.sound]
'TadDftd4.C62_d3zero' depends on axioms: [propext, Classical.choice, Quot.sound]
'TadDftd4.C62_exact' depends on axioms: [propext, Classical.choice, Quot.sound]
'TadDftd4.C63_c6' depends on axioms: [propext, Classical.choice, Quot.sound]
'TadDftd4.C63_c6_tables' depends on axioms: [propext, Classical.choice, Quot.sound]
'TadDftd4.C63_energy' depends on axioms: [propext, Classical.choice, Quot.sound]
'TadDftd4.C63_energy_tables' depends on axioms: [propext, Classical.choice, Quot.sound]
'TadDftd4.C63_refc6' depends on axioms: [propext, Classical.choice, Quot.sound]
'TadDftd4.C64_damping' depends on axioms: [propext, Classical.choice, Quot.sound]
'TadDftd4.C64_damping_strict' depends on axioms: [propext, Classical.choice, Quot.sound]
'TadDftd4.C64_gradient_damping' depends on axioms: [propext, Classical.choice, Quot.sound]
'TadDftd4.C64_gradient_scaling' depends on axioms: [propext, Classical.choice, Quot.sound]
'TadDftd4.C64_scaling' depends on axioms: [propext, Classical.choice, Quot.sound]
'TadDftd4.C64_scaling_strict' depends on axioms: [propext, Classical.choice, Quot.sound]
'TadDftd4.C65_batch' depends on axioms: [propext, Classical.choice, Quot.sound]
'TadDftd4.C65_padding' depends on axioms: [propext, Classical.choice, Quot.sound]
'TadDftd4.C65_relabelling' depends on axioms: [propext, Classical.choice, Quot.sound]
'TadDftd4.C65_rotation' depends on axioms: [propext, Classical.choice, Quot.sound]
'TadDftd4.C66_apart' depends on axioms: [propext, Classical.choice, Quot.sound]
'TadDftd4.C66_strict' depends on axioms: [propext, Classical.choice, Quot.sound]
'TadDftd4.C67_attractive' depends on axioms: [propext, Classical.choice, Quot.sound]
'TadDftd4.C67_bounds' depends on axioms: [propext, Classical.choice, Quot.sound]
'TadDftd4.C67_dftd4_attractive' depends on axioms: [propext, Classical.choice, Quot.sound]
'TadDftd4.C67_dftd4_repulsive' depends on axioms: [propext, Classical.choice, Quot.sound]
'TadDftd4.C67_repulsive' depends on axioms: [propext, Classical.choice, Quot.sound]
'TadDftd4.C68_accepted' depends on axioms: [propext, Classical.choice, Quot.sound]
'TadDftd4.C68_calculate' depends on axioms: [propext, Classical.choice, Quot.sound]
'TadDftd4.C68_dftd4' depends on axioms: [propext, Classical.choice, Quot.sound]
'TadDftd4.C68_model' depends on axioms: [propext, Classical.choice, Quot.sound]
'TadDftd4.C68_properties' depends on axioms: [propext, Classical.choice, Quot.sound]
'TadDftd4.C69_charges' depends on axioms: [propext, Classical.choice, Quot.sound]
'TadDftd4.C69_forces' depends on axioms: [propext, Classical.choice, Quot.sound]
'TadDftd4.C69_fragment' depends on axioms: [propext, Classical.choice, Quot.sound]
'TadDftd4.C69_padding' depends on axioms: [propext, Classical.choice, Quot.sound]
'TadDftd4.C69_relabelling' depends on axioms: [propext, Classical.choice, Quot.sound]
'TadDftd4.C69_rigid_motion' depends on axioms: [propext, Classical.choice, Quot.sound]
'TadDftd4.C69_rotation' depends on axioms: [propext, Classical.choice, Quot.sound]
'TadDftd4.C69_smooth' depends on axioms: [propext, Classical.choice, Quot.sound]
'TadDftd4.C69_solvable' depends on axioms: [propext, Classical.choice, Quot.sound]
'TadDftd4.C70_batch' depends on axioms: [propext, Classical.choice, Quot.sound]
'TadDftd4.C70_forces_sum_zero' depends on axioms: [propext, Classical.choice, Quot.sound]
'TadDftd4.C70_padding' depends on axioms: [propext, Classical.choice, Quot.sound]
'TadDftd4.C70_padding_force_zero' depends on axioms: [propext, Classical.choice, Quot.sound]
'TadDftd4.C70_relabelling' depends on axioms: [propext, Classical.choice, Quot.sound]
'TadDftd4.C70_rotation' depends on axioms: [propext, Classical.choice, Quot.sound]
'TadDftd4.C70_smooth' depends on axioms: [propext, Classical.choice, Quot.sound]
'TadDftd4.C70_torque_zero' depends on axioms: [propext, Classical.choice, Quot.sound]
'TadDftd4.C71_mzero_padding_false' depends on axioms: [propext, Classical.choice, Quot.sound]
'TadDftd4.C71_op_underflow_false' depends on axioms: [propext, Classical.choice, Quot.sound]
'TadDftd4.C71_parameters_partial' depends on axioms: [propext, Classical.choice, Quot.sound]
'TadDftd4.C71_positions' depends on axioms: [propext, Classical.choice, Quot.sound]
'TadDftd4.C72_finite' depends on axioms: [propext, Classical.choice, Quot.sound]
'TadDftd4.C72_forces' depends on axioms: [propext, Classical.choice, Quot.sound]
'TadDftd4.C72_forward' depends on axioms: [propext, Classical.choice, Quot.sound]
'TadDftd4.C72_underflow_nan' depends on axioms: [propext, Classical.choice, Quot.sound]
'TadDftd4.C73_forward' depends on axioms: [propext, Classical.choice, Quot.sound]
'TadDftd4.C73_gradient' depends on axioms: [propext, Classical.choice, Quot.sound]
'TadDftd4.C73_loss' depends on axioms: [propext, Classical.choice, Quot.sound]
'TadDftd4.C73_vdw_padding_nan' depends on axioms: [propext, Classical.choice, Quot.sound]
'TadDftd4.C74_batch_independence' depends on axioms: [propext, Classical.choice, Quot.sound]
'TadDftd4.C74_c6' depends on axioms: [propext, Classical.choice, Quot.sound]
'TadDftd4.C74_isometry' depends on axioms: [propext, Classical.choice, Quot.sound]
'TadDftd4.C74_no_charge' depends on axioms: [propext, Classical.choice, Quot.sound]
'TadDftd4.C74_padding' depends on axioms: [propext, Classical.choice, Quot.sound]
'TadDftd4.C74_relabelling' depends on axioms: [propext, Classical.choice, Quot.sound]
'TadDftd4.C74_rigid_motion' depends on axioms: [propext, Classical.choice, Quot.sound]
'TadDftd4.C74_values' depends on axioms: [propext, Classical.choice, Quot.sound]
'TadDftd4.C75_finite' depends on axioms: [propext, Classical.choice, Quot.sound]
'TadDftd4.C75_gradient' depends on axioms: [propext, Classical.choice, Quot.sound]
'TadDftd4.C75_positions' depends on axioms: [propext, Classical.choice, Quot.sound]
'TadDftd4.C75_underflow_nan' depends on axioms: [propext, Classical.choice, Quot.sound]
'TadDftd4.C76_machines' depends on axioms: [propext, Classical.choice, Quot.sound]
'TadDftd4.C76_padding' depends on axioms: [propext, Classical.choice, Quot.sound]
'TadDftd4.C76_relabelling' depends on axioms: [propext, Classical.choice, Quot.sound]
'TadDftd4.C76_rigid_motion' depends on axioms: [propext, Classical.choice, Quot.sound]
'TadDftd4.C77_finite' depends on axioms: [propext, Classical.choice, Quot.sound]
'TadDftd4.C77_hessian' depends on axioms: [propext, Classical.choice, Quot.sound]
'TadDftd4.C77_symmetric' depends on axioms: [propext, Classical.choice, Quot.sound]
'TadDftd4.C77_zero_modes' depends on axioms: [propext, Classical.choice, Quot.sound]
'TadDftd4.C78_c6' depends on axioms: [propext, Classical.choice, Quot.sound]
'TadDftd4.C78_c6_le' depends on axioms: [propext, Classical.choice, Quot.sound]
'TadDftd4.C78_energy' depends on axioms: [propext, Classical.choice, Quot.sound]
'TadDftd4.C78_finite' depends on axioms: [propext, Classical.choice, Quot.sound]
'TadDftd4.C78_runs' depends on axioms: [propext, Classical.choice, Quot.sound]
'TadDftd4.C78_single' depends on axioms: [propext, Classical.choice, Quot.sound]
'TadDftd4.C78_single_finite' depends on axioms: [propext, Classical.choice, Quot.sound]
'TadDftd4.C78_single_finite_runs' depends on axioms: [propext, Classical.choice, Quot.sound]
'TadDftd4.C78_single_runs' depends on axioms: [propext, Classical.choice, Quot.sound]
'TadDftd4.C80_builtin' depends on axioms: [propext, Classical.choice, Quot.sound]
'TadDftd4.C80_deregister_false' depends on axioms: [propext, Classical.choice, Quot.sound]
'TadDftd4.C80_deregister_partial' depends on axioms: [propext, Classical.choice, Quot.sound]
'TadDftd4.C80_raises' depends on axioms: [propext, Classical.choice, Quot.sound]
'TadDftd4.C80_register' depends on axioms: [propext, Classical.choice, Quot.sound]
'TadDftd4.C80_sum' depends on axioms: [propext, Classical.choice, Quot.sound]
'TadDftd4.C81_exact' depends on axioms: [propext, Classical.choice, Quot.sound]
'TadDftd4.C81_neglected' depends on axioms: [propext, Classical.choice, Quot.sound]
'TadDftd4.C82_continuous' depends on axioms: [propext, Classical.choice, Quot.sound]
'TadDftd4.C82_inside' depends on axioms: [propext, Classical.choice, Quot.sound]
'TadDftd4.C82_jump' depends on axioms: [propext, Classical.choice, Quot.sound]
'TadDftd4.C82_limit' depends on axioms: [propext, Classical.choice, Quot.sound]
'TadDftd4.C83_conservation' depends on axioms: [propext, Classical.choice, Quot.sound]
'TadDftd4.C83_cutoff' depends on axioms: [propext, Classical.choice, Quot.sound]
'TadDftd4.C83_dftd4' depends on axioms: [propext, Classical.choice, Quot.sound]
'TadDftd4.C84_interaction' depends on axioms: [propext, Classical.choice, Quot.sound]
'TadDftd4.C84_mean' depends on axioms: [propext, Classical.choice, Quot.sound]
'TadDftd4.C85_chain' depends on axioms: [propext, Classical.choice, Quot.sound]
'TadDftd4.C85_finite' depends on axioms: [propext, Classical.choice, Quot.sound]
'TadDftd4.C85_gradient' depends on axioms: [propext, Classical.choice, Quot.sound]
'TadDftd4.C86_cutoff' depends on axioms: [propext, Classical.choice, Quot.sound]
'TadDftd4.C86_energy' depends on axioms: [propext, Classical.choice, Quot.sound]
'TadDftd4.C87_local' depends on axioms: [propext, Classical.choice, Quot.sound]
'TadDftd4.C87_total' depends on axioms: [propext, Classical.choice, Quot.sound]
'TadDftd4.C87_uniform' depends on axioms: [propext, Classical.choice, Quot.sound]
'TadDftd4.C88_alone' depends on axioms: [propext, Classical.choice, Quot.sound]
'TadDftd4.C88_atoms' depends on axioms: [propext, Classical.choice, Quot.sound]
'TadDftd4.C88_dftd4' depends on axioms: [propext, Classical.choice, Quot.sound]
'TadDftd4.C88_dftd4_atoms' depends on axioms: [propext, Classical.choice, Quot.sound]
'TadDftd4.C88_flat_false' depends on axioms: [propext, Classical.choice, Quot.sound]
'TadDftd4.C88_flat_raises' depends on axioms: [propext, Classical.choice, Quot.sound]
'TadDftd4.C88_numbers' depends on axioms: [propext, Classical.choice, Quot.sound]
'TadDftd4.C88_systems' depends on axioms: [propext, Classical.choice, Quot.sound]
'TadDftd4.C89_c6' depends on axioms: [propext, Classical.choice, Quot.sound]
'TadDftd4.C89_energy' depends on axioms: [propext, Classical.choice, Quot.sound]
'TadDftd4.C89_pairs' depends on axioms: [propext, Classical.choice, Quot.sound]
'TadDftd4.C89_shipped' depends on axioms: [propext, Classical.choice, Quot.sound]
'TadDftd4.C89_uniform' depends on axioms: [propext, Classical.choice, Quot.sound]
'TadDftd4.C90_alone' depends on axioms: [propext, Classical.choice, Quot.sound]
'TadDftd4.C90_atoms' depends on axioms: [propext, Classical.choice, Quot.sound]
'TadDftd4.C90_dftd4' depends on axioms: [propext, Classical.choice, Quot.sound]
'TadDftd4.C90_disp3_raises' depends on axioms: [propext, Classical.choice, Quot.sound]
'TadDftd4.C90_flat_false' depends on axioms: [propext, Classical.choice, Quot.sound]
'TadDftd4.C90_flat_raises' depends on axioms: [propext, Classical.choice, Quot.sound]
'TadDftd4.C90_numbers' depends on axioms: [propext, Classical.choice, Quot.sound]
'TadDftd4.C90_systems' depends on axioms: [propext, Classical.choice, Quot.sound]
'TadDftd4.C91_broadcast' depends on axioms: [propext, Classical.choice, Quot.sound]
'TadDftd4.C91_dftd4' depends on axioms: [propext, Classical.choice, Quot.sound]
'TadDftd4.C91_molecule' depends on axioms: [propext, Classical.choice, Quot.sound]
'TadDftd4.C91_s10_raises' depends on axioms: [propext, Classical.choice, Quot.sound]
'TadDftd4.C91_sets' depends on axioms: [propext, Classical.choice, Quot.sound]
'TadDftd4.C92_cutoffs' depends on axioms: [propext, Classical.choice, Quot.sound]
'TadDftd4.C92_pairs' depends on axioms: [propext, Classical.choice, Quot.sound]
'TadDftd4.C92_uniform' depends on axioms: [propext, Classical.choice, Quot.sound]
'TadDftd4.C93_energy' depends on axioms: [propext, Classical.choice, Quot.sound]
'TadDftd4.C93_exact_ignores' depends on axioms: [propext, Classical.choice, Quot.sound]
'TadDftd4.C93_linear' depends on axioms: [propext, Classical.choice, Quot.sound]
'TadDftd4.C93_object' depends on axioms: [propext, Classical.choice, Quot.sound]
'TadDftd4.C93_one_atom' depends on axioms: [propext, Classical.choice, Quot.sound]
'TadDftd4.C93_own' depends on axioms: [propext, Classical.choice, Quot.sound]
'TadDftd4.C93_shared' depends on axioms: [propext, Classical.choice, Quot.sound]
'TadDftd4.C93_wrong_shape' depends on axioms: [propext, Classical.choice, Quot.sound]
'TadDftd4.C94_accepted' depends on axioms: [propext, Classical.choice, Quot.sound]
'TadDftd4.C94_attracts' depends on axioms: [propext, Classical.choice, Quot.sound]
'TadDftd4.C94_energy' depends on axioms: [propext, Classical.choice, Quot.sound]
'TadDftd4.C94_nonneg' depends on axioms: [propext, Classical.choice, Quot.sound]
'TadDftd4.C94_padding_false' depends on axioms: [propext, Classical.choice, Quot.sound]
'TadDftd4.C94_rejected_false' depends on axioms: [propext, Classical.choice, Quot.sound]
'TadDftd4.C95_cutoff_false' depends on axioms: [propext, Classical.choice, Quot.sound]
'TadDftd4.C95_forces' depends on axioms: [propext, Classical.choice, Quot.sound]
'TadDftd4.C95_hessian' depends on axioms: [propext, Classical.choice, Quot.sound]
'TadDftd4.C95_neighbourhood' depends on axioms: [propext, Classical.choice, Quot.sound]
'TadDftd4.C95_param' depends on axioms: [propext, Classical.choice, Quot.sound]
'TadDftd4.C95_step' depends on axioms: [propext, Classical.choice, Quot.sound]
'TadDftd4.C96_dftd4' depends on axioms: [propext, Classical.choice, Quot.sound]
'TadDftd4.C96_dftd4_false' depends on axioms: [propext, Classical.choice, Quot.sound]
'TadDftd4.C96_energy' depends on axioms: [propext, Classical.choice, Quot.sound]
'TadDftd4.C96_false' depends on axioms: [propext, Classical.choice, Quot.sound]
'TadDftd4.C96_ignored' depends on axioms: [propext, Classical.choice, Quot.sound]
'TadDftd4.C96_overbinds' depends on axioms: [propext, Classical.choice, Quot.sound]
'TadDftd4.C96_zero' depends on axioms: [propext, Classical.choice, Quot.sound]
'TadDftd4.C97_force' depends on axioms: [propext, Classical.choice, Quot.sound]
'TadDftd4.C97_given' depends on axioms: [propext, Classical.choice, Quot.sound]
'TadDftd4.C97_gradient' depends on axioms: [propext, Classical.choice, Quot.sound]
'TadDftd4.C97_total' depends on axioms: [propext, Classical.choice, Quot.sound]
'TadDftd4.C98_dftd4_partial' depends on axioms: [propext, Classical.choice, Quot.sound]
'TadDftd4.C98_error' depends on axioms: [propext, Classical.choice, Quot.sound]
'TadDftd4.C98_integer' depends on axioms: [propext, Classical.choice, Quot.sound]
'TadDftd4.C98_number_false' depends on axioms: [propext, Classical.choice, Quot.sound]
'TadDftd4.C98_objects' depends on axioms: [propext, Classical.choice, Quot.sound]
'TadDftd4.C98_tensor' depends on axioms: [propext, Classical.choice, Quot.sound]
'TadDftd4.C99_columns' depends on axioms: [propext, Classical.choice, Quot.sound]
'TadDftd4.C99_columns_false' depends on axioms: [propext, Classical.choice, Quot.sound]
'TadDftd4.C99_columns_runtime' depends on axioms: [propext, Classical.choice, Quot.sound]
'TadDftd4.C99_columns_runtime_atm' depends on axioms: [propext, Classical.choice, Quot.sound]
'TadDftd4.C99_one_column' depends on axioms: [propext, Classical.choice, Quot.sound]
'TadDftd4.C99_one_column_dftd4' depends on axioms: [propext, Classical.choice, Quot.sound]
'TadDftd4.C99_radii' depends on axioms: [propext, Classical.choice, Quot.sound]
'TadDftd4.C99_rcov' depends on axioms: [propext, Classical.choice, Quot.sound]
'TadDftd4.C99_rcov_dftd4' depends on axioms: [propext, Classical.choice, Quot.sound]
'TadDftd4.C99_rcov_false' depends on axioms: [propext, Classical.choice, Quot.sound]
'TadDftd4.C99_rvdw_dftd4' depends on axioms: [propext, Classical.choice, Quot.sound]
'TadDftd4.C99_rvdw_ignored' depends on axioms: [propext, Classical.choice, Quot.sound]
'TadDftd4.DType.C43_calculate' depends on axioms: [propext, Classical.choice, Quot.sound]
'TadDftd4.DType.C43_dftd4' depends on axioms: [propext, Classical.choice, Quot.sound]
'TadDftd4.DType.C43_properties' depends on axioms: [propext]
'TadDftd4.DType.C44_double_object_single_positions' depends on axioms: [propext, Classical.choice, Quot.sound]
'TadDftd4.DType.C44_full_false' depends on axioms: [propext, Quot.sound]
'TadDftd4.DType.C44_partial' depends on axioms: [propext, Classical.choice, Quot.sound]
'TadDftd4.DType.C44_single_object_double_positions' depends on axioms: [propext, Quot.sound]
'TadDftd4.Device.C50_calculate_partial' depends on axioms: [propext, Classical.choice, Quot.sound]
'TadDftd4.Device.C50_default_device_false' depends on axioms: [propext, Classical.choice, Quot.sound]
'TadDftd4.Device.C50_dftd4_partial' depends on axioms: [propext, Classical.choice, Quot.sound]
'TadDftd4.Device.C50_model' depends on axioms: [propext, Classical.choice, Quot.sound]
'TadDftd4.Device.C50_model_construction_false' depends on axioms: [propext, Classical.choice, Quot.sound]
'TadDftd4.Device.C50_model_elsewhere_false' depends on axioms: [propext, Classical.choice, Quot.sound]
'TadDftd4.Device.C50_object_elsewhere_false' depends on axioms: [propext, Classical.choice, Quot.sound]
'TadDftd4.Device.C50_properties' depends on axioms: [propext, Classical.choice, Quot.sound]
