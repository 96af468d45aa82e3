# Axioms of every property theorem

Output of `Lean.collectAxioms` on the committed build. No other axiom occurs.

## none (3)

`C136_shape`, `C61_not_opened_partial`, `C81_switch_negation`

## propext (37)

`C04_new_wf`, `C09_too_long`, `C100_output`, `C132_operation`, `C133_silent`, `C134_bias`, `C136_pool`, `C144_convolutional`, `C153_rounding`, `C156_rounding`, `C15_release_negation`, `C15_zero_stride`, `C16_release_negation`, `C19_panic_negation`, `C20_negation`, `C20_rejected`, `C21_rejected`, `C23_empty_negation`, `C24_mismatch`, `C26_negation`, `C28_backward_twice_negation`, `C31_accumulate_negation`, `C31_bias_negation`, `C31_mask_negation`, `C37_shape`, `C45_empty`, `C52_softmax`, `C53_ne`, `C56_softmax_refused`, `C61_network_partial`, `C61_other_files_partial`, `C69_fully_connected_negation`, `C69_softmax_negation`, `C83_negation`, `C94_backward`, `C94_layer`, `C98_backward_refused`

## propext, Quot.sound (68)

`C01_new_overflow_debug`, `C01_new_release`, `C04_injective`, `C04_position`, `C09_bad_index`, `C09_scatter_ok`, `C100_backward`, `C100_infer`, `C114_filled`, `C114_fresh`, `C132_agrees`, `C134_backward`, `C134_infer`, `C134_modes`, `C136_backward`, `C155_own`, `C15_large_kernel_debug`, `C17_rejected`, `C18_same_outcome`, `C21_window_inside`, `C22_rejected`, `C32_convolutional_negation`, `C32_max_pool_negation`, `C32_refused_partial`, `C33_switch_detour`, `C33_switch_returns`, `C33_switch_to_inference`, `C33_switch_to_training`, `C35_panic_negation`, `C35_returns`, `C41_negation`, `C42_inference_partial`, `C42_negation`, `C42_refused_partial`, `C51_call`, `C51_calls`, `C52_fully_connected_partial`, `C52_fully_connected_shapes_partial`, `C52_fully_connected_zero_negation`, `C52_getters`, `C52_large_mask_negation`, `C52_shape`, `C52_stride_zero_negation`, `C53_symm`, `C53_trans`, `C54_norm`, `C62_layer`, `C69_fully_connected_partial`, `C70_convolutional_few_biases_negation`, `C70_convolutional_wrong_depth_negation`, `C70_fully_connected_negation`, `C70_network_negation`, `C76_custom_layers`, `C81_add_layer_partial`, `C81_fully_connected_negation`, `C81_softmax_fill_negation`, `C81_switch_layer_partial`, `C81_switch_partial`, `C85_fill_order`, `C87_tensor_size`, `C94_agrees`, `C94_infer`, `C94_recover`, `C94_returns`, `C95_geometry`, `C95_unique`, `C98_switch`, `C99_tensor`

## propext, Classical.choice, Quot.sound (466)

`C01_new_zeros`, `C02_set_get`, `C03_out_of_range`, `C04_surjective`, `C05_fill_with_vec`, `C05_new_fill`, `C05_val_is_get_item`, `C06_history`, `C06_step`, `C07_history`, `C07_operation`, `C08_add`, `C08_add_to_self`, `C08_multiply_elementwise`, `C08_multiply_elementwise_self`, `C08_scale`, `C08_scale_self`, `C100_platforms`, `C100_predict`, `C100_uses`, `C101_libm`, `C101_outputs`, `C101_uses`, `C102_f32`, `C102_real`, `C102_without`, `C103_copy`, `C103_order`, `C103_relu`, `C103_relu_general`, `C104_network`, `C105_infer`, `C105_places`, `C105_underflow`, `C106_infer`, `C106_negative`, `C107_infer`, `C107_training`, `C108_balance`, `C108_unbiased`, `C109_infer`, `C109_neighbours`, `C109_three`, `C109_underflow`, `C10_involution`, `C10_transpose`, `C110_layer`, `C110_negative_input`, `C110_negative_weight`, `C110_network`, `C111_history`, `C111_layer`, `C111_network`, `C112_infer`, `C112_infinite`, `C112_two`, `C113_finite`, `C113_nan`, `C113_zero`, `C114_predict`, `C114_twins`, `C115_crossEntropy`, `C115_shift`, `C115_sum`, `C116_exact`, `C116_infer`, `C117_exact`, `C117_infer`, `C118_infer`, `C119_exact`, `C119_infer`, `C11_matrix_multiply`, `C120_exact`, `C120_infer`, `C121_infer`, `C121_infinite`, `C121_input`, `C122_backward`, `C122_difference`, `C122_loss`, `C122_targets`, `C123_step`, `C124_exists`, `C124_forward`, `C124_infer`, `C125_batch`, `C125_underflow`, `C125_zero`, `C126_certificate`, `C126_exact`, `C126_infer`, `C127_batch`, `C127_cross_entropy`, `C128_direction`, `C128_step`, `C129_again`, `C129_resume`, `C12_transpose_first`, `C12_transpose_second`, `C130_bias`, `C130_exact`, `C130_input`, `C130_real_input`, `C130_real_layer`, `C130_weight`, `C131_infer`, `C131_number`, `C131_order`, `C132_history`, `C133_convolution`, `C133_matrix`, `C133_pooling`, `C134_load`, `C134_noticed`, `C135_average`, `C135_distribution`, `C135_entries`, `C135_order`, `C135_values`, `C136_always`, `C136_infer`, `C136_panic`, `C136_training`, `C137_load`, `C138_empty_partial`, `C138_inert_partial`, `C138_negation`, `C139_ieee`, `C139_infer`, `C139_windows`, `C13_fused`, `C13_fused_eq_stepwise`, `C140_bound`, `C140_stops`, `C140_witness`, `C141_exists`, `C141_infer`, `C142_fits`, `C142_not_negative`, `C142_one_layer`, `C142_positive`, `C142_softmax`, `C143_average`, `C143_constant`, `C143_distribution`, `C143_order`, `C143_values`, `C144_layer`, `C144_nan`, `C144_unit`, `C145_convolutional`, `C145_fully_connected`, `C145_max_pool`, `C145_poison`, `C145_same`, `C145_softmax`, `C146_channel`, `C146_spread`, `C146_training`, `C146_unit`, `C146_zeros`, `C147_fewer`, `C147_more`, `C147_type`, `C147_unreadable`, `C148_batch`, `C148_repair`, `C149_binary`, `C149_convolutional`, `C149_same`, `C149_sign`, `C149_softmax`, `C14_f32`, `C14_relu_mask`, `C150_convolutional`, `C150_determined`, `C150_read`, `C151_exact`, `C151_f32`, `C152_f32`, `C152_ignored`, `C152_unseen`, `C153_commute`, `C153_exact`, `C153_neutral`, `C153_transpose`, `C154_margin`, `C154_network`, `C154_odds`, `C154_raise`, `C155_others`, `C156_entries`, `C156_monotone`, `C156_triangle`, `C157_exact`, `C157_infer`, `C158_limits`, `C158_network`, `C158_odds`, `C158_sharper`, `C159_bound`, `C159_direction`, `C15_check_partial`, `C15_debug_partial`, `C15_release_partial`, `C160_equal`, `C160_lowest`, `C160_training`, `C16_agree`, `C16_exact_partial`, `C16_windows_inside_partial`, `C17_convolution_bias`, `C18_convolution_bias_relu`, `C19_adjoint_partial`, `C19_adjoint_release_partial`, `C19_debug_negation`, `C19_everywhere_negation`, `C19_huge_negation`, `C19_negation`, `C19_pointwise_partial`, `C20_channels_negation`, `C20_kernel_gradient_partial`, `C21_accepts`, `C21_max_pool`, `C22_track_origin`, `C23_backward`, `C23_total`, `C24_distribution`, `C24_formula`, `C24_order`, `C24_shift`, `C25_exact_partial`, `C25_finite_sum_partial`, `C25_large_negation`, `C25_overflow_negation`, `C25_range_partial`, `C25_small_negation`, `C25_underflow_negation`, `C26_derivative_partial`, `C26_exact_partial`, `C26_formula_partial`, `C27_forward_inference`, `C27_forward_training`, `C27_modes_agree`, `C28_accumulate`, `C28_clear`, `C28_round`, `C29_bias`, `C29_derivative`, `C29_input`, `C29_weight`, `C30_forward_inference`, `C30_forward_training`, `C30_modes_agree`, `C31_backward_partial`, `C31_computes_partial`, `C34_chain`, `C35_add_layer`, `C35_panics`, `C36_infer`, `C37_empty`, `C38_history`, `C38_same_modes`, `C39_modes`, `C40_empty`, `C40_getters`, `C41_add_layer_negation`, `C41_modes_agree_partial`, `C41_run_state_partial`, `C43_chain`, `C43_derivative`, `C43_input_entry`, `C44_bytes`, `C44_file`, `C44_wf`, `C45_round_trip`, `C46_any_layers_partial`, `C46_empty_layer_negation`, `C46_load_partial`, `C46_loads_iff_partial`, `C46_no_kernels_negation`, `C46_predicts_any_mode_partial`, `C46_predicts_negation`, `C46_predicts_partial`, `C47_network`, `C47_tensor`, `C48_negation`, `C48_partial`, `C48_saved_partial`, `C48_single_partial`, `C49_accepted`, `C49_missing_key`, `C49_wrong_type`, `C50_negation`, `C50_partial`, `C50_usable_partial`, `C51_network`, `C52_convolutional_debug_partial`, `C52_convolutional_partial`, `C52_fully_connected_returns_partial`, `C52_max_pool_debug_partial`, `C52_max_pool_partial`, `C53_eq_iff`, `C53_f32`, `C53_f32_bytes`, `C53_f32_equiv`, `C53_refl`, `C54_exact`, `C54_scale`, `C55_no_panic`, `C56_backward_returns`, `C57_derivative`, `C58_bias`, `C58_joint`, `C58_layer`, `C58_weight`, `C59_clean_partial`, `C59_debug_partial`, `C59_negation`, `C59_poison_negation`, `C59_release_partial`, `C59_saved_partial`, `C59_unreadable_partial`, `C60_convolutional_negation`, `C60_exact_partial`, `C60_fully_connected_partial`, `C60_inference_partial`, `C60_max_pool_negation`, `C60_softmax_negation`, `C61_negation`, `C61_network_negation`, `C62_network`, `C63_any_layers_partial`, `C63_appends_partial`, `C63_negation`, `C63_no_kernels_negation`, `C63_refuses_partial`, `C64_matrix_multiply`, `C64_no_overflow`, `C64_transpose_first`, `C64_transpose_second`, `C65_convolutional`, `C65_fully_connected`, `C66_layer`, `C66_network`, `C67_order`, `C68_sum`, `C69_convolutional_few_channels_negation`, `C69_convolutional_negation`, `C69_convolutional_partial`, `C69_convolutional_training_negation`, `C69_convolutional_unfit_partial`, `C69_fully_connected_training_negation`, `C69_max_pool_negation`, `C69_max_pool_partial`, `C69_max_pool_training_negation`, `C69_max_pool_unfit_partial`, `C70_convolutional_bias_negation`, `C70_convolutional_depth_negation`, `C70_convolutional_partial`, `C70_convolutional_refill_negation`, `C70_fully_connected_partial`, `C70_max_pool_partial`, `C70_refill_negation`, `C70_softmax_partial`, `C71_accurate`, `C71_nan`, `C71_overflow`, `C71_underflow`, `C72_accumulate`, `C72_round`, `C73_softmax`, `C74_infer`, `C74_order`, `C75_bounds`, `C75_full_range`, `C75_gaussian`, `C75_uniform`, `C75_uniform_panics`, `C76_call`, `C76_debug_clean`, `C76_program`, `C76_release_panics`, `C77_infer`, `C77_limit`, `C77_matrix_multiply`, `C77_order`, `C78_infer`, `C78_overflow`, `C79_local`, `C79_shift`, `C79_tiles`, `C80_bits`, `C80_eq`, `C81_add_layer_negation`, `C81_agrees`, `C81_convolutional_partial`, `C81_fully_connected_partial`, `C81_load_negation`, `C81_load_partial`, `C81_max_pool_partial`, `C81_softmax_negation`, `C82_f32`, `C82_whole_image`, `C82_windows`, `C83_convolutional_partial`, `C83_exact_partial`, `C83_fully_connected_partial`, `C83_max_pool_partial`, `C83_softmax_partial`, `C84_certificate`, `C84_exact`, `C84_infer`, `C85_fill`, `C85_forward`, `C85_index`, `C85_shape_1d`, `C85_shape_2d`, `C85_shape_new`, `C85_transpose`, `C86_differs`, `C86_exact`, `C86_infer`, `C86_rows`, `C87_distinct`, `C87_network_size`, `C87_stable`, `C88_cross_entropy`, `C88_lower`, `C88_output`, `C88_rate`, `C88_squared_error`, `C89_derivative`, `C89_network`, `C90_bound`, `C90_inference`, `C90_training`, `C90_use`, `C91_batch`, `C91_bias`, `C91_order`, `C91_weight`, `C92_linear`, `C92_zero`, `C93_opposite`, `C94_history`, `C94_training`, `C95_exact`, `C95_layers`, `C95_max_pool`, `C95_tensors`, `C96_infer`, `C96_training`, `C97_channel`, `C97_dead`, `C97_idle`, `C97_training`, `C97_unit`, `C98_add_layer`, `C98_backward`, `C98_compose`, `C98_infer`, `C98_infer_refused`, `C99_amplify`, `C99_negation`, `C99_parameters_partial`
