{
 "claims": [
  {
   "property": "C01",
   "status": "proved",
   "theorems": [
    "Rusty.C01_new_zeros",
    "Rusty.C01_new_overflow_debug",
    "Rusty.C01_new_release"
   ],
   "note": ""
  },
  {
   "property": "C02",
   "status": "proved",
   "theorems": [
    "Rusty.C02_set_get"
   ],
   "note": ""
  },
  {
   "property": "C03",
   "status": "proved",
   "theorems": [
    "Rusty.C03_out_of_range"
   ],
   "note": ""
  },
  {
   "property": "C04",
   "status": "proved",
   "theorems": [
    "Rusty.C04_position",
    "Rusty.C04_injective",
    "Rusty.C04_surjective",
    "Rusty.C04_new_wf"
   ],
   "note": ""
  },
  {
   "property": "C05",
   "status": "proved",
   "theorems": [
    "Rusty.C05_val_is_get_item",
    "Rusty.C05_fill_with_vec",
    "Rusty.C05_new_fill"
   ],
   "note": ""
  },
  {
   "property": "C06",
   "status": "proved",
   "theorems": [
    "Rusty.C06_step",
    "Rusty.C06_history"
   ],
   "note": ""
  },
  {
   "property": "C07",
   "status": "proved",
   "theorems": [
    "Rusty.C07_operation",
    "Rusty.C07_history"
   ],
   "note": ""
  },
  {
   "property": "C08",
   "status": "proved",
   "theorems": [
    "Rusty.C08_add",
    "Rusty.C08_add_to_self",
    "Rusty.C08_multiply_elementwise",
    "Rusty.C08_multiply_elementwise_self",
    "Rusty.C08_scale",
    "Rusty.C08_scale_self"
   ],
   "note": ""
  },
  {
   "property": "C09",
   "status": "proved",
   "theorems": [
    "Rusty.C09_scatter_ok",
    "Rusty.C09_too_long",
    "Rusty.C09_bad_index"
   ],
   "note": ""
  },
  {
   "property": "C10",
   "status": "proved",
   "theorems": [
    "Rusty.C10_transpose",
    "Rusty.C10_involution"
   ],
   "note": ""
  },
  {
   "property": "C11",
   "status": "proved",
   "theorems": [
    "Rusty.C11_matrix_multiply"
   ],
   "note": ""
  },
  {
   "property": "C12",
   "status": "proved",
   "theorems": [
    "Rusty.C12_transpose_first",
    "Rusty.C12_transpose_second"
   ],
   "note": ""
  },
  {
   "property": "C13",
   "status": "proved",
   "theorems": [
    "Rusty.C13_fused",
    "Rusty.C13_fused_eq_stepwise"
   ],
   "note": ""
  },
  {
   "property": "C14",
   "status": "proved",
   "theorems": [
    "Rusty.C14_relu_mask",
    "Rusty.C14_f32"
   ],
   "note": ""
  },
  {
   "property": "C15",
   "status": "partial",
   "theorems": [
    "Rusty.C15_debug_partial",
    "Rusty.C15_release_partial",
    "Rusty.C15_check_partial",
    "Rusty.C15_zero_stride",
    "Rusty.C15_large_kernel_debug",
    "Rusty.C15_release_negation"
   ],
   "note": "With overflow checks the check accepts exactly the exact tilings, for all arguments (C15_debug_partial). Without them it accepts exactly the tilings modulo 2^32 (C15_release_partial), which makes the property false for kernels larger than the image: subtraction wraps (C15_release_negation). For kernels no larger than the image the equivalence holds in both profiles, zero strides are never accepted."
  },
  {
   "property": "C16",
   "status": "partial",
   "theorems": [
    "Rusty.C16_exact_partial",
    "Rusty.C16_agree",
    "Rusty.C16_windows_inside_partial",
    "Rusty.C16_release_negation"
   ],
   "note": "Agreement of the two size computations proved for all arguments and both profiles; windows-inside proved for kernels no larger than the image; false in release builds for larger kernels (C16_release_negation). C16_exact_partial: for every accepted geometry the windows lie inside exactly if the kernel is no larger than the image or there is nothing to visit."
  },
  {
   "property": "C17",
   "status": "proved",
   "theorems": [
    "Rusty.C17_convolution_bias",
    "Rusty.C17_rejected"
   ],
   "note": ""
  },
  {
   "property": "C18",
   "status": "proved",
   "theorems": [
    "Rusty.C18_same_outcome",
    "Rusty.C18_convolution_bias_relu"
   ],
   "note": ""
  },
  {
   "property": "C19",
   "status": "partial",
   "theorems": [
    "Rusty.C19_pointwise_partial",
    "Rusty.C19_adjoint_partial",
    "Rusty.C19_adjoint_release_partial",
    "Rusty.C19_negation",
    "Rusty.C19_panic_negation",
    "Rusty.C19_everywhere_negation",
    "Rusty.C19_huge_negation",
    "Rusty.C19_debug_negation"
   ],
   "note": "False of the code: the loop bounds of convolution_backprop_outgoing_gradient are wrong. Proved: the full adjoint for stride 1 and kernels as large as the result (up to 2^31 rows; in release builds at any size); for every other accepted geometry, data on which the call panics or returns a wrong gradient (C19_everywhere_negation; C19_debug_negation without any bound on sizes or stride, debug builds); pointwise correctness wherever the bounds are right."
  },
  {
   "property": "C20",
   "status": "partial",
   "theorems": [
    "Rusty.C20_kernel_gradient_partial",
    "Rusty.C20_rejected",
    "Rusty.C20_negation",
    "Rusty.C20_channels_negation"
   ],
   "note": "False of the code for more than one channel: the channel argument only enters the check, all channels are summed. Proved for single-channel gradients; for every accepted geometry with two or more channels and every position, data with a wrong value (C20_channels_negation); the rejection part is proved."
  },
  {
   "property": "C21",
   "status": "proved",
   "theorems": [
    "Rusty.C21_max_pool",
    "Rusty.C21_window_inside",
    "Rusty.C21_rejected",
    "Rusty.C21_accepts"
   ],
   "note": ""
  },
  {
   "property": "C22",
   "status": "proved",
   "theorems": [
    "Rusty.C22_track_origin",
    "Rusty.C22_rejected"
   ],
   "note": ""
  },
  {
   "property": "C23",
   "status": "proved",
   "theorems": [
    "Rusty.C23_backward",
    "Rusty.C23_total",
    "Rusty.C23_empty_negation"
   ],
   "note": "Hypothesis hne excludes only layers with an empty input and an empty mask, for which backward is refused (C23_empty_negation)."
  },
  {
   "property": "C24",
   "status": "proved",
   "theorems": [
    "Rusty.C24_distribution",
    "Rusty.C24_order",
    "Rusty.C24_shift",
    "Rusty.C24_mismatch",
    "Rusty.C24_formula"
   ],
   "note": ""
  },
  {
   "property": "C25",
   "status": "partial",
   "theorems": [
    "Rusty.C25_finite_sum_partial",
    "Rusty.C25_exact_partial",
    "Rusty.C25_range_partial",
    "Rusty.C25_overflow_negation",
    "Rusty.C25_underflow_negation",
    "Rusty.C25_large_negation",
    "Rusty.C25_small_negation"
   ],
   "note": "False in general. Proved over an IEEE binary32 model with an accuracy assumption on exp: an entry of the result lies in [0,1] unless its exponential is infinite or the computed sum is zero, and is NaN in exactly these cases (C25_exact_partial). Negations for every finite tensor with an entry whose exponential is at least 2^128, and for every tensor all of whose exponentials are below 2^-150; witnesses 100.0 and -200.0. Entries in [-87,71] are always fine."
  },
  {
   "property": "C26",
   "status": "partial",
   "theorems": [
    "Rusty.C26_formula_partial",
    "Rusty.C26_negation",
    "Rusty.C26_exact_partial",
    "Rusty.C26_derivative_partial"
   ],
   "note": "Proved for column shapes: formula over every arithmetic, simplified form and derivative in exact arithmetic. False for all other shapes: backward is refused (C26_negation, for every such layer)."
  },
  {
   "property": "C27",
   "status": "proved",
   "theorems": [
    "Rusty.C27_forward_inference",
    "Rusty.C27_forward_training",
    "Rusty.C27_modes_agree"
   ],
   "note": ""
  },
  {
   "property": "C28",
   "status": "proved",
   "theorems": [
    "Rusty.C28_round",
    "Rusty.C28_accumulate",
    "Rusty.C28_clear",
    "Rusty.C28_backward_twice_negation"
   ],
   "note": ""
  },
  {
   "property": "C29",
   "status": "proved",
   "theorems": [
    "Rusty.C29_derivative",
    "Rusty.C29_input",
    "Rusty.C29_weight",
    "Rusty.C29_bias"
   ],
   "note": ""
  },
  {
   "property": "C30",
   "status": "proved",
   "theorems": [
    "Rusty.C30_forward_inference",
    "Rusty.C30_forward_training",
    "Rusty.C30_modes_agree"
   ],
   "note": ""
  },
  {
   "property": "C31",
   "status": "partial",
   "theorems": [
    "Rusty.C31_computes_partial",
    "Rusty.C31_backward_partial",
    "Rusty.C31_mask_negation",
    "Rusty.C31_bias_negation",
    "Rusty.C31_accumulate_negation"
   ],
   "note": "False of the code: the relu mask is ignored, bias gradients are never updated, kernel gradients are overwritten instead of accumulated (negations with witnesses). Proved: what backward does compute, and the property for one-kernel layers with no pre-activation cut off."
  },
  {
   "property": "C32",
   "status": "partial",
   "theorems": [
    "Rusty.C32_refused_partial",
    "Rusty.C32_max_pool_negation",
    "Rusty.C32_convolutional_negation"
   ],
   "note": "Proved for fully connected and softmax layers. False for the other two: a max-pool layer in inference mode answers Ok with a zero gradient, a convolutional layer panics (negations for every such layer)."
  },
  {
   "property": "C33",
   "status": "proved",
   "theorems": [
    "Rusty.C33_switch_to_inference",
    "Rusty.C33_switch_to_training",
    "Rusty.C33_switch_returns",
    "Rusty.C33_switch_detour"
   ],
   "note": "switch_to_inference always returns; switch_to_training is proved for calls that return, and returns for well formed layers."
  },
  {
   "property": "C34",
   "status": "proved",
   "theorems": [
    "Rusty.C34_chain"
   ],
   "note": ""
  },
  {
   "property": "C35",
   "status": "proved",
   "theorems": [
    "Rusty.C35_panics",
    "Rusty.C35_add_layer",
    "Rusty.C35_returns",
    "Rusty.C35_panic_negation"
   ],
   "note": "Proved for calls that return; C35_panics is the exact condition for a panic: never in release builds, in debug builds when a needed buffer or state has 2^32 elements or more (C35_panic_negation is an instance)."
  },
  {
   "property": "C36",
   "status": "proved",
   "theorems": [
    "Rusty.C36_infer"
   ],
   "note": ""
  },
  {
   "property": "C37",
   "status": "proved",
   "theorems": [
    "Rusty.C37_shape",
    "Rusty.C37_empty"
   ],
   "note": ""
  },
  {
   "property": "C38",
   "status": "proved",
   "theorems": [
    "Rusty.C38_same_modes",
    "Rusty.C38_history"
   ],
   "note": ""
  },
  {
   "property": "C39",
   "status": "proved",
   "theorems": [
    "Rusty.C39_modes"
   ],
   "note": ""
  },
  {
   "property": "C40",
   "status": "proved",
   "theorems": [
    "Rusty.C40_getters",
    "Rusty.C40_empty"
   ],
   "note": ""
  },
  {
   "property": "C41",
   "status": "partial",
   "theorems": [
    "Rusty.C41_modes_agree_partial",
    "Rusty.C41_run_state_partial",
    "Rusty.C41_negation",
    "Rusty.C41_add_layer_negation"
   ],
   "note": "switch_to_training proved in full, and which mode every history leaves the network in; false for switch_to_inference, which records Training (C41_negation for every network, C41_add_layer_negation for a consequence)."
  },
  {
   "property": "C42",
   "status": "partial",
   "theorems": [
    "Rusty.C42_refused_partial",
    "Rusty.C42_inference_partial",
    "Rusty.C42_negation"
   ],
   "note": "Refusal proved for a wrong shape, an empty network and a reported mode other than Training. False after switch_to_inference: the call panics (C42_negation, for every network with layers)."
  },
  {
   "property": "C43",
   "status": "proved",
   "theorems": [
    "Rusty.C43_chain",
    "Rusty.C43_derivative",
    "Rusty.C43_input_entry"
   ],
   "note": "Chain proved for every network over every arithmetic; derivative proved for networks of fully connected, max-pool and column softmax layers at inputs where no ReLU or pooling tie occurs."
  },
  {
   "property": "C44",
   "status": "proved",
   "theorems": [
    "Rusty.C44_bytes",
    "Rusty.C44_wf",
    "Rusty.C44_file"
   ],
   "note": "Proved for all tensors whose encoding is shorter than 2^64 bytes, which holds for every tensor with a consistent layout."
  },
  {
   "property": "C45",
   "status": "proved",
   "theorems": [
    "Rusty.C45_round_trip",
    "Rusty.C45_empty"
   ],
   "note": "Proved for every layer made by a constructor, fill_from_state or loading and used in any way, all map orders, any bytes behind."
  },
  {
   "property": "C46",
   "status": "partial",
   "theorems": [
    "Rusty.C46_any_layers_partial",
    "Rusty.C46_no_kernels_negation",
    "Rusty.C46_loads_iff_partial",
    "Rusty.C46_predicts_negation",
    "Rusty.C46_load_partial",
    "Rusty.C46_predicts_partial",
    "Rusty.C46_predicts_any_mode_partial",
    "Rusty.C46_empty_layer_negation"
   ],
   "note": "The exact condition for loading is proved for every network a client can assemble, from layers of all types made in any way, well formed or not: the file loads iff every convolutional layer has a kernel, and then gives the same layers (C46_loads_iff_partial, C46_any_layers_partial). False otherwise: the layer ConvolutionalLayer::empty() returns saves, and no load of the file says Ok (C46_no_kernels_negation, C46_empty_layer_negation). Predictions of the loaded network are equal for well formed layers, across build profiles, when the modes agree, and in any modes where max(x,0) and the if-form of ReLU agree; false for a fully connected layer with weights of depth 2, whose output depends on earlier calls (C46_predicts_negation)."
  },
  {
   "property": "C47",
   "status": "proved",
   "theorems": [
    "Rusty.C47_tensor",
    "Rusty.C47_network"
   ],
   "note": "Proved for every cut point, for tensors and networks."
  },
  {
   "property": "C48",
   "status": "partial",
   "theorems": [
    "Rusty.C48_partial",
    "Rusty.C48_single_partial",
    "Rusty.C48_saved_partial",
    "Rusty.C48_negation"
   ],
   "note": "False: when a later layer of the file is refused, the earlier ones stay (C48_negation). Proved: what the network is after an Err, and that it is unchanged for files with one layer and for files saved by the library."
  },
  {
   "property": "C49",
   "status": "proved",
   "theorems": [
    "Rusty.C49_wrong_type",
    "Rusty.C49_missing_key",
    "Rusty.C49_accepted"
   ],
   "note": "Proved for all four types and all data."
  },
  {
   "property": "C50",
   "status": "partial",
   "theorems": [
    "Rusty.C50_usable_partial",
    "Rusty.C50_partial",
    "Rusty.C50_negation"
   ],
   "note": "False: from_file does not validate (C50_negation). Proved for files whose content is a tensor with a consistent layout; C50_usable_partial is the exact condition on what was read, in both profiles."
  },
  {
   "property": "C51",
   "status": "proved",
   "theorems": [
    "Rusty.C51_call",
    "Rusty.C51_calls",
    "Rusty.C51_network"
   ],
   "note": ""
  },
  {
   "property": "C52",
   "status": "partial",
   "theorems": [
    "Rusty.C52_shape",
    "Rusty.C52_fully_connected_partial",
    "Rusty.C52_fully_connected_shapes_partial",
    "Rusty.C52_fully_connected_zero_negation",
    "Rusty.C52_max_pool_partial",
    "Rusty.C52_stride_zero_negation",
    "Rusty.C52_large_mask_negation",
    "Rusty.C52_softmax",
    "Rusty.C52_convolutional_partial",
    "Rusty.C52_getters",
    "Rusty.C52_fully_connected_returns_partial",
    "Rusty.C52_max_pool_debug_partial",
    "Rusty.C52_convolutional_debug_partial"
   ],
   "note": "Proved for positive sizes, positive strides and masks that fit; with overflow checks the outcome is characterised exactly for all arguments (C52_*_debug_partial, C52_fully_connected_returns_partial). The claim is false outside: zero sizes are accepted, stride 0 panics, masks larger than the input wrap or panic (negations)."
  },
  {
   "property": "C53",
   "status": "proved",
   "theorems": [
    "Rusty.C53_eq_iff",
    "Rusty.C53_ne",
    "Rusty.C53_symm",
    "Rusty.C53_refl",
    "Rusty.C53_trans",
    "Rusty.C53_f32",
    "Rusty.C53_f32_equiv",
    "Rusty.C53_f32_bytes"
   ],
   "note": ""
  },
  {
   "property": "C54",
   "status": "proved",
   "theorems": [
    "Rusty.C54_norm",
    "Rusty.C54_exact",
    "Rusty.C54_scale"
   ],
   "note": ""
  },
  {
   "property": "C55",
   "status": "proved",
   "theorems": [
    "Rusty.C55_no_panic"
   ],
   "note": ""
  },
  {
   "property": "C56",
   "status": "proved",
   "theorems": [
    "Rusty.C56_backward_returns",
    "Rusty.C56_softmax_refused"
   ],
   "note": ""
  },
  {
   "property": "C57",
   "status": "proved",
   "theorems": [
    "Rusty.C57_derivative"
   ],
   "note": ""
  },
  {
   "property": "C58",
   "status": "proved",
   "theorems": [
    "Rusty.C58_joint",
    "Rusty.C58_layer",
    "Rusty.C58_weight",
    "Rusty.C58_bias"
   ],
   "note": ""
  },
  {
   "property": "C59",
   "status": "partial",
   "theorems": [
    "Rusty.C59_clean_partial",
    "Rusty.C59_poison_negation",
    "Rusty.C59_release_partial",
    "Rusty.C59_debug_partial",
    "Rusty.C59_saved_partial",
    "Rusty.C59_unreadable_partial",
    "Rusty.C59_negation"
   ],
   "note": "False: a layer with all its keys of which one does not decode, or with stride 0, makes loading panic in both profiles (C59_poison_negation, C59_negation). In release builds these are exactly the files that panic (C59_release_partial). In debug builds loading also panics when a size of a layer overflows on its way into the network; C59_debug_partial is the exact condition, C59_clean_partial a sufficient one for returning."
  },
  {
   "property": "C60",
   "status": "partial",
   "theorems": [
    "Rusty.C60_exact_partial",
    "Rusty.C60_inference_partial",
    "Rusty.C60_fully_connected_partial",
    "Rusty.C60_max_pool_negation",
    "Rusty.C60_convolutional_negation",
    "Rusty.C60_softmax_negation"
   ],
   "note": "False in training mode for convolutional, max-pool and softmax layers, whose buffers are not renewed (negations). Proved for fully connected layers in both modes and for all types in inference mode. C60_exact_partial: for all pairs of well formed layers of one type, the loaded layer is well formed exactly if the target was in inference mode, is fully connected, or its buffers already had the shapes needed."
  },
  {
   "property": "C61",
   "status": "partial",
   "theorems": [
    "Rusty.C61_not_opened_partial",
    "Rusty.C61_other_files_partial",
    "Rusty.C61_negation",
    "Rusty.C61_network_partial",
    "Rusty.C61_network_negation"
   ],
   "note": "False: fs::write truncates first (C61_negation for tensors, C61_network_negation for networks, every cut point). Proved when the file cannot be opened, and for other files."
  },
  {
   "property": "C62",
   "status": "proved",
   "theorems": [
    "Rusty.C62_network",
    "Rusty.C62_layer"
   ],
   "note": "Proved."
  },
  {
   "property": "C63",
   "status": "partial",
   "theorems": [
    "Rusty.C63_any_layers_partial",
    "Rusty.C63_no_kernels_negation",
    "Rusty.C63_appends_partial",
    "Rusty.C63_refuses_partial",
    "Rusty.C63_negation"
   ],
   "note": "False for networks with a convolutional layer without kernels (C63_no_kernels_negation, C63_negation). Proved for every other network a client can assemble, well formed or not (C63_any_layers_partial); in debug builds and training mode the layers must have been in training mode or have representable element counts."
  },
  {
   "property": "C64",
   "status": "proved",
   "theorems": [
    "Rusty.C64_matrix_multiply",
    "Rusty.C64_no_overflow",
    "Rusty.C64_transpose_first",
    "Rusty.C64_transpose_second"
   ],
   "note": "Over the IEEE binary32 model of Verif/Model/IEEE.lean."
  },
  {
   "property": "C65",
   "status": "proved",
   "theorems": [
    "Rusty.C65_fully_connected",
    "Rusty.C65_convolutional"
   ],
   "note": "Over the IEEE binary32 model."
  },
  {
   "property": "C66",
   "status": "proved",
   "theorems": [
    "Rusty.C66_layer",
    "Rusty.C66_network"
   ],
   "note": "Over the IEEE binary32 model. Note that relu hides NaN: a NaN pre-activation becomes 0."
  },
  {
   "property": "C67",
   "status": "proved",
   "theorems": [
    "Rusty.C67_order"
   ],
   "note": "Over the IEEE binary32 model; the exponentials of the entries are compared because Rust promises no monotonicity of exp."
  },
  {
   "property": "C68",
   "status": "proved",
   "theorems": [
    "Rusty.C68_sum"
   ],
   "note": "Over the IEEE binary32 model with the accuracy assumption on exp of Verif/Spec/IEEE.lean."
  },
  {
   "property": "C69",
   "status": "partial",
   "theorems": [
    "Rusty.C69_convolutional_partial",
    "Rusty.C69_convolutional_unfit_partial",
    "Rusty.C69_convolutional_negation",
    "Rusty.C69_convolutional_training_negation",
    "Rusty.C69_convolutional_few_channels_negation",
    "Rusty.C69_max_pool_unfit_partial",
    "Rusty.C69_max_pool_training_negation",
    "Rusty.C69_max_pool_partial",
    "Rusty.C69_max_pool_negation",
    "Rusty.C69_fully_connected_negation",
    "Rusty.C69_fully_connected_training_negation",
    "Rusty.C69_fully_connected_partial",
    "Rusty.C69_softmax_negation"
   ],
   "note": "False for fully connected layers (both modes), softmax layers, and for max-pool and convolutional layers when image and output fit each other or when only some checks fail late (negations: Ok for the wrong shapes, or Err after the output was overwritten). Proved: convolutional layers (both modes) and max-pool layers in training mode report every pair of shapes that do not fit each other and leave the output alone; fully connected layers in training mode report outputs of the wrong shape. Images smaller than the windows are not covered here, see C15 and C16."
  },
  {
   "property": "C70",
   "status": "partial",
   "theorems": [
    "Rusty.C70_fully_connected_partial",
    "Rusty.C70_fully_connected_negation",
    "Rusty.C70_network_negation",
    "Rusty.C70_convolutional_partial",
    "Rusty.C70_convolutional_refill_negation",
    "Rusty.C70_convolutional_bias_negation",
    "Rusty.C70_convolutional_depth_negation",
    "Rusty.C70_convolutional_few_biases_negation",
    "Rusty.C70_convolutional_wrong_depth_negation",
    "Rusty.C70_max_pool_partial",
    "Rusty.C70_softmax_partial",
    "Rusty.C70_refill_negation"
   ],
   "note": "False: fully connected weights of depth other than 1, convolutional layers with fewer biases than kernels or with kernels of another depth than the input, convolutional and max-pool layers refilled in training mode for another output size (negations). Proved for fully connected weights of depth 1, for convolutional layers in both modes with matching depths, as many 1x1x1 biases as kernels and in training mode a mask of the right shape, for max-pool layers in inference mode or with a record of the right length, and for softmax layers."
  },
  {
   "property": "C71",
   "status": "proved",
   "theorems": [
    "Rusty.C71_accurate",
    "Rusty.C71_nan",
    "Rusty.C71_overflow",
    "Rusty.C71_underflow"
   ],
   "note": ""
  },
  {
   "property": "C72",
   "status": "proved",
   "theorems": [
    "Rusty.C72_round",
    "Rusty.C72_accumulate"
   ],
   "note": ""
  },
  {
   "property": "C73",
   "status": "proved",
   "theorems": [
    "Rusty.C73_softmax"
   ],
   "note": "Assumes ExpAccurate of the platform exp (satisfiable: expCut_accurate)."
  },
  {
   "property": "C74",
   "status": "proved",
   "theorems": [
    "Rusty.C74_infer",
    "Rusty.C74_order"
   ],
   "note": "ExpAccurate of the platform exp is needed only if there is a softmax layer; Accuracy asks for it there. Exact semantics: Spec.exactNet; error propagation: Spec.Accuracy."
  },
  {
   "property": "C75",
   "status": "proved",
   "theorems": [
    "Rusty.C75_uniform",
    "Rusty.C75_uniform_panics",
    "Rusty.C75_bounds",
    "Rusty.C75_full_range",
    "Rusty.C75_gaussian"
   ],
   "note": "Models UniformFloat of rand 0.8.5 and Normal of rand_distr 0.4.3; the generator is the environment."
  },
  {
   "property": "C76",
   "status": "proved",
   "theorems": [
    "Rusty.C76_call",
    "Rusty.C76_custom_layers",
    "Rusty.C76_program",
    "Rusty.C76_debug_clean",
    "Rusty.C76_release_panics"
   ],
   "note": "Client programs: Spec.Client (55 public functions with integer arithmetic, indexing or panics; the other public functions are plain functions, applied between calls). A release build is modelled as wrapping on overflow, a debug build as panicking."
  },
  {
   "property": "C77",
   "status": "proved",
   "theorems": [
    "Rusty.C77_infer",
    "Rusty.C77_order",
    "Rusty.C77_matrix_multiply",
    "Rusty.C77_limit"
   ],
   "note": "Conditions: Spec.Exact over Spec.Grid; exact semantics: Spec.exactNet. Networks with a softmax layer are excluded (see C73, C74)."
  },
  {
   "property": "C78",
   "status": "proved",
   "theorems": [
    "Rusty.C78_infer",
    "Rusty.C78_overflow"
   ],
   "note": "Monotonicity proved over the IEEE binary32 model for all networks in range; C78_overflow shows that the range condition is needed."
  },
  {
   "property": "C79",
   "status": "proved",
   "theorems": [
    "Rusty.C79_local",
    "Rusty.C79_tiles",
    "Rusty.C79_shift"
   ],
   "note": "Holds for any arithmetic without laws. Follows every state of a run; the network may go on with other layers after the first m."
  },
  {
   "property": "C80",
   "status": "proved",
   "theorems": [
    "Rusty.C80_bits",
    "Rusty.C80_eq"
   ],
   "note": "IEEE model of f32. The condition on exp is needed only when a softmax layer comes first (after max pooling at most), because exp is a parameter of the model."
  },
  {
   "property": "C81",
   "status": "partial",
   "theorems": [
    "Rusty.C81_agrees",
    "Rusty.C81_convolutional_partial",
    "Rusty.C81_max_pool_partial",
    "Rusty.C81_fully_connected_partial",
    "Rusty.C81_fully_connected_negation",
    "Rusty.C81_softmax_negation",
    "Rusty.C81_softmax_fill_negation",
    "Rusty.C81_switch_partial",
    "Rusty.C81_switch_layer_partial",
    "Rusty.C81_switch_negation",
    "Rusty.C81_add_layer_partial",
    "Rusty.C81_add_layer_negation",
    "Rusty.C81_load_partial",
    "Rusty.C81_load_negation"
   ],
   "note": "False in general, true of convolutional and max-pool layers (C81_convolutional_partial, C81_max_pool_partial). Negations: a softmax layer loaded from a map whose name does not decode has the new shape (all builds); fill_from_state of softmax and fully connected layers in training mode has replaced the parameters when a buffer is too large (debug); add_layer has appended the layer but not its states, and the network never infers again (debug); load_from_file keeps the layers before the one that panics (all builds); switch_to_training records training mode. C81_agrees ties the statement-by-statement model to the plain one. Panics inside forward, infer and backward: C94."
  },
  {
   "property": "C82",
   "status": "proved",
   "theorems": [
    "Rusty.C82_windows",
    "Rusty.C82_whole_image",
    "Rusty.C82_f32"
   ],
   "note": "For every arithmetic with commutative multiplication and max(x,0) as in IEEE; C82_f32 instantiates it with the model of f32."
  },
  {
   "property": "C83",
   "status": "partial",
   "theorems": [
    "Rusty.C83_fully_connected_partial",
    "Rusty.C83_max_pool_partial",
    "Rusty.C83_softmax_partial",
    "Rusty.C83_convolutional_partial",
    "Rusty.C83_exact_partial",
    "Rusty.C83_negation"
   ],
   "note": "False of fully connected layers: backward multiplies the stored relu mask by the gradient, so call number n passes on the product of all gradients so far (C83_negation, C83_fully_connected_partial for any number of calls, C83_exact_partial for when it does no harm). Max pool and softmax layers satisfy it; convolutional layers return the same outgoing gradient and overwrite their kernel gradients with the same values."
  },
  {
   "property": "C84",
   "status": "proved",
   "theorems": [
    "Rusty.C84_exact",
    "Rusty.C84_infer",
    "Rusty.C84_certificate"
   ],
   "note": "C84_exact for exact arithmetic, C84_infer for f32, C84_certificate turns one run into a guarantee for all inputs nearby. The exponential of the platform is assumed accurate to 2^-20 (class ExpAccurate) if there is a softmax layer."
  },
  {
   "property": "C85",
   "status": "proved",
   "theorems": [
    "Rusty.C85_shape_1d",
    "Rusty.C85_shape_2d",
    "Rusty.C85_shape_new",
    "Rusty.C85_transpose",
    "Rusty.C85_index",
    "Rusty.C85_fill",
    "Rusty.C85_fill_order",
    "Rusty.C85_forward"
   ],
   "note": "Added after seeded edits of index_2d, new_1d and fill_weights_with_value went unnoticed."
  },
  {
   "property": "C86",
   "status": "proved",
   "theorems": [
    "Rusty.C86_rows",
    "Rusty.C86_exact",
    "Rusty.C86_infer",
    "Rusty.C86_differs"
   ],
   "note": "C86_rows in any arithmetic, C86_exact for exact arithmetic, C86_infer for f32, C86_differs: two networks whose f32 predictions differ."
  },
  {
   "property": "C87",
   "status": "proved",
   "theorems": [
    "Rusty.C87_tensor_size",
    "Rusty.C87_network_size",
    "Rusty.C87_distinct",
    "Rusty.C87_stable"
   ],
   "note": "C87_tensor_size, C87_network_size, C87_distinct, C87_stable."
  },
  {
   "property": "C88",
   "status": "proved",
   "theorems": [
    "Rusty.C88_rate",
    "Rusty.C88_lower",
    "Rusty.C88_squared_error",
    "Rusty.C88_cross_entropy",
    "Rusty.C88_output"
   ],
   "note": "C88_rate, C88_lower, C88_output, C88_squared_error, C88_cross_entropy."
  },
  {
   "property": "C89",
   "status": "proved",
   "theorems": [
    "Rusty.C89_derivative",
    "Rusty.C89_network"
   ],
   "note": "C89_network (infer and backward of the program in f32 against the derivatives), C89_derivative (backpropagation over the reals gives the derivatives)."
  },
  {
   "property": "C90",
   "status": "proved",
   "theorems": [
    "Rusty.C90_use",
    "Rusty.C90_training",
    "Rusty.C90_inference",
    "Rusty.C90_bound"
   ],
   "note": "C90_use (infer and backward keep the count), C90_training and C90_inference (the count after a switch), C90_bound (bound at all times)."
  },
  {
   "property": "C91",
   "status": "proved",
   "theorems": [
    "Rusty.C91_batch",
    "Rusty.C91_order",
    "Rusty.C91_weight",
    "Rusty.C91_bias"
   ],
   "note": "C91_batch (any arithmetic: per-example contributions, added in order), C91_order (exact arithmetic: permuting the examples), C91_weight and C91_bias (derivatives of the sum over the examples; away from kinks, as in C58)."
  },
  {
   "property": "C92",
   "status": "proved",
   "theorems": [
    "Rusty.C92_linear",
    "Rusty.C92_zero"
   ],
   "note": "C92_linear (linear combinations), C92_zero (zero gradient)."
  },
  {
   "property": "C93",
   "status": "proved",
   "theorems": [
    "Rusty.C93_opposite"
   ],
   "note": "C93_opposite."
  },
  {
   "property": "C94",
   "status": "proved",
   "theorems": [
    "Rusty.C94_agrees",
    "Rusty.C94_layer",
    "Rusty.C94_infer",
    "Rusty.C94_backward",
    "Rusty.C94_recover",
    "Rusty.C94_history",
    "Rusty.C94_returns",
    "Rusty.C94_training"
   ],
   "note": "C94_agrees (the model with panic states refines the plain one), C94_layer, C94_infer, C94_backward (what stays), C94_recover (mode switches), C94_history (predictions after histories with panics), C94_returns (such histories include those without panics), C94_training. Gradients collected before the panic stay in the layer (example in Props/UnwindRun.lean)."
  },
  {
   "property": "C95",
   "status": "proved",
   "theorems": [
    "Rusty.C95_geometry",
    "Rusty.C95_unique",
    "Rusty.C95_tensors",
    "Rusty.C95_max_pool",
    "Rusty.C95_exact",
    "Rusty.C95_layers"
   ],
   "note": "C95_geometry, C95_unique (shapes), C95_tensors (any floats: neither result is above the other), C95_max_pool (single precision), C95_exact, C95_layers. An example shows that windows with gaps must be excluded."
  },
  {
   "property": "C96",
   "status": "proved",
   "theorems": [
    "Rusty.C96_infer",
    "Rusty.C96_training"
   ],
   "note": "C96_infer (states and output), C96_training (gradients of the fully connected layers of the second part: equal before, equal after, bit for bit). backward is covered for networks of layers whose backward succeeds (backable)."
  },
  {
   "property": "C97",
   "status": "proved",
   "theorems": [
    "Rusty.C97_unit",
    "Rusty.C97_channel",
    "Rusty.C97_training",
    "Rusty.C97_dead",
    "Rusty.C97_idle"
   ],
   "note": "C97_unit, C97_channel (outputs), C97_training (gradients of a unit over any number of rounds), C97_dead and C97_idle (single precision, all values finite; the gradient stays the same number, its zero may lose its sign). Backward of convolutional layers is not part of the claim: there the kernel gradients do mix the channels (C20, C31)."
  },
  {
   "property": "C98",
   "status": "proved",
   "theorems": [
    "Rusty.C98_infer",
    "Rusty.C98_infer_refused",
    "Rusty.C98_backward",
    "Rusty.C98_backward_refused",
    "Rusty.C98_add_layer",
    "Rusty.C98_switch",
    "Rusty.C98_compose"
   ],
   "note": "C98_infer, C98_infer_refused, C98_backward, C98_backward_refused, C98_add_layer, C98_switch: which methods a network calls, for an arbitrary layer type (`LayerOps` without laws; `passForward` and `passBackward` in Spec/Custom). C98_compose: composition, for layers that satisfy `Computes`. Layers with interior mutability or global state are outside the model: a method is a function from the layer and its arguments to a result and a new layer."
  },
  {
   "property": "C99",
   "status": "partial",
   "theorems": [
    "Rusty.C99_tensor",
    "Rusty.C99_parameters_partial",
    "Rusty.C99_amplify",
    "Rusty.C99_negation"
   ],
   "note": "C99_tensor: holds for tensors. C99_parameters_partial: holds for the parameters of a network, the only numbers that are in the file. C99_amplify and C99_negation: false for the network as a whole; shapes are read from the file and not compared with its size, so 64 bytes make a new network store over four thousand million numbers, and for every shape that fits there is such a file. Missing: nothing that is true; the gradients, masks and intermediate states are what is not bounded."
  },
  {
   "property": "C100",
   "status": "proved",
   "theorems": [
    "Rusty.C100_infer",
    "Rusty.C100_backward",
    "Rusty.C100_uses",
    "Rusty.C100_output",
    "Rusty.C100_platforms",
    "Rusty.C100_predict"
   ],
   "note": "C100_infer, C100_backward, C100_uses: more generally, for any two arithmetics and any relation that the operations respect (a parametricity theorem for the model). C100_platforms is the case of NaN, with the assumption that exp of NaN is NaN; C100_predict draws the consequence for outputs. Saving is not one of the calls: a file contains the bits of NaN parameters, so it may differ. This also shows that the simplification of the IEEE model (one NaN) loses nothing."
  },
  {
   "property": "C101",
   "status": "proved",
   "theorems": [
    "Rusty.C101_uses",
    "Rusty.C101_outputs",
    "Rusty.C101_libm"
   ],
   "note": "IEEE model of f32; nothing at all is assumed about exp and division. C101_uses: any two platforms; C101_libm: the two arithmetics of the model with any two libraries. An example shows that softmax does depend on the library."
  },
  {
   "property": "C102",
   "status": "proved",
   "theorems": [
    "Rusty.C102_real",
    "Rusty.C102_without",
    "Rusty.C102_f32"
   ],
   "note": "C102_real and C102_without in exact arithmetic and for any arithmetic with the law of max; C102_f32 is about the order of the exponentials, because nothing is assumed about exp."
  },
  {
   "property": "C103",
   "status": "proved",
   "theorems": [
    "Rusty.C103_order",
    "Rusty.C103_relu_general",
    "Rusty.C103_relu",
    "Rusty.C103_copy"
   ],
   "note": "C103_relu and C103_copy on the IEEE model; C103_relu_general for any ordered floats; C103_order needs no law at all."
  },
  {
   "property": "C104",
   "status": "proved",
   "theorems": [
    "Rusty.C104_network"
   ],
   "note": "Exact arithmetic (reals); in f32 it holds only up to rounding and is not claimed. The condition on the input of a first max-pool layer is there because the real model starts the maximum at -2^128 instead of negative infinity. An example shows that it is false with a bias."
  },
  {
   "property": "C105",
   "status": "proved",
   "theorems": [
    "Rusty.C105_infer",
    "Rusty.C105_places",
    "Rusty.C105_underflow"
   ],
   "note": "IEEE single precision as in Verif/Model/IEEE.lean. C105_infer states the conditions for the products and sums of the run; C105_places derives them from binary places of the parameters and inputs and from bounds on the sums; C105_underflow is a witness that the condition on underflow is needed."
  },
  {
   "property": "C106",
   "status": "proved",
   "theorems": [
    "Rusty.C106_infer",
    "Rusty.C106_negative"
   ],
   "note": "IEEE single precision as in Verif/Model/IEEE.lean. C106_infer compares the runs of the two networks; C106_negative is a witness that the condition on the signs is needed."
  },
  {
   "property": "C107",
   "status": "proved",
   "theorems": [
    "Rusty.C107_infer",
    "Rusty.C107_training"
   ],
   "note": "Over the exact reals. C107_infer gives all states and the output, C107_training the collected gradients."
  },
  {
   "property": "C108",
   "status": "proved",
   "theorems": [
    "Rusty.C108_balance",
    "Rusty.C108_unbiased"
   ],
   "note": "Over the exact reals. C108_balance is the general law, C108_unbiased the case of zero biases."
  },
  {
   "property": "C109",
   "status": "proved",
   "theorems": [
    "Rusty.C109_infer",
    "Rusty.C109_neighbours",
    "Rusty.C109_three",
    "Rusty.C109_underflow"
   ],
   "note": "Over the IEEE binary32 model. C109_infer is the general law, C109_neighbours the case of two fully connected layers, C109_three and C109_underflow show that both restrictions are needed."
  },
  {
   "property": "C110",
   "status": "proved",
   "theorems": [
    "Rusty.C110_network",
    "Rusty.C110_layer",
    "Rusty.C110_negative_input",
    "Rusty.C110_negative_weight"
   ],
   "note": "IEEE f32. C110_network: all layers raised. C110_layer: one layer raised, weights of any sign. C110_negative_input and C110_negative_weight: concrete networks showing that the sign conditions are needed."
  },
  {
   "property": "C111",
   "status": "proved",
   "theorems": [
    "Rusty.C111_layer",
    "Rusty.C111_network",
    "Rusty.C111_history"
   ],
   "note": "C111_network for pairs of networks, C111_history for one network and any history, C111_layer for one layer. Equality is of the whole model of the network, so everything observable afterwards agrees too."
  },
  {
   "property": "C112",
   "status": "proved",
   "theorems": [
    "Rusty.C112_infer",
    "Rusty.C112_two",
    "Rusty.C112_infinite"
   ],
   "note": "C112_infer is the general law, C112_two the case of two neighbouring layers, C112_infinite shows that finiteness of the removed values is needed."
  },
  {
   "property": "C113",
   "status": "proved",
   "theorems": [
    "Rusty.C113_zero",
    "Rusty.C113_finite",
    "Rusty.C113_nan"
   ],
   "note": "C113_zero makes no assumption on the numbers and allows NaN, C113_finite excludes NaN for finite weights and states, C113_nan shows that an infinite input does give NaN."
  },
  {
   "property": "C114",
   "status": "proved",
   "theorems": [
    "Rusty.C114_predict",
    "Rusty.C114_twins",
    "Rusty.C114_fresh",
    "Rusty.C114_filled"
   ],
   "note": "C114_predict is about values, C114_twins about recorded gradients, C114_fresh shows that training starts with equal recorded gradients, C114_filled that filled layers have such units only. The statement needs no law of arithmetic."
  },
  {
   "property": "C115",
   "status": "proved",
   "theorems": [
    "Rusty.C115_sum",
    "Rusty.C115_shift",
    "Rusty.C115_crossEntropy"
   ],
   "note": "In exact arithmetic. Shapes that are not columns are refused by backward, see C26."
  },
  {
   "property": "C116",
   "status": "proved",
   "theorems": [
    "Rusty.C116_exact",
    "Rusty.C116_infer"
   ],
   "note": "C116_exact is about exact arithmetic, C116_infer about what infer computes in f32, with the error bound of C74."
  },
  {
   "property": "C117",
   "status": "proved",
   "theorems": [
    "Rusty.C117_exact",
    "Rusty.C117_infer"
   ],
   "note": "C117_exact is about exact arithmetic, C117_infer about what infer computes in f32, with the error bound of C74. Mirroring and transposition generate all eight symmetries of a square."
  },
  {
   "property": "C118",
   "status": "proved",
   "theorems": [
    "Rusty.C118_infer"
   ],
   "note": "Values have to be finite, since zero times infinity is not zero, see C112_infinite."
  },
  {
   "property": "C119",
   "status": "proved",
   "theorems": [
    "Rusty.C119_exact",
    "Rusty.C119_infer"
   ],
   "note": "C119_exact is about exact arithmetic on the f32 parameters, C119_infer about f32 with explicit error bounds."
  },
  {
   "property": "C120",
   "status": "proved",
   "theorems": [
    "Rusty.C120_exact",
    "Rusty.C120_infer"
   ],
   "note": "C120_exact is about exact arithmetic on the f32 parameters, C120_infer about f32 with explicit error bounds."
  },
  {
   "property": "C121",
   "status": "proved",
   "theorems": [
    "Rusty.C121_infer",
    "Rusty.C121_input",
    "Rusty.C121_infinite"
   ],
   "note": "C121_infer is the general law, C121_input the case of the first layer, C121_infinite shows that finiteness is needed."
  },
  {
   "property": "C122",
   "status": "proved",
   "theorems": [
    "Rusty.C122_backward",
    "Rusty.C122_targets",
    "Rusty.C122_difference",
    "Rusty.C122_loss"
   ],
   "note": "C122_backward (any gradient), C122_targets (gradients near -t/y), C122_loss (forward and backward of one training step against the derivative of the loss; assumes ExpAccurate as C73)."
  },
  {
   "property": "C123",
   "status": "proved",
   "theorems": [
    "Rusty.C123_step"
   ],
   "note": "C123_step. Assumes ExpAccurate as C73. The bounds are those of C74 for the scores, (4n+54) 2^-23 for softmax (C122), and GradBounds (C89) for the layers before it."
  },
  {
   "property": "C124",
   "status": "proved",
   "theorems": [
    "Rusty.C124_forward",
    "Rusty.C124_infer",
    "Rusty.C124_exists"
   ],
   "note": "C124_forward for one layer, C124_infer for networks, C124_exists for the weights. Infinite or NaN entries outside a window would reach the sums of the unrolled layer as NaN, hence the condition."
  },
  {
   "property": "C125",
   "status": "proved",
   "theorems": [
    "Rusty.C125_batch",
    "Rusty.C125_zero",
    "Rusty.C125_underflow"
   ],
   "note": "C125_batch for two networks and any number of examples, C125_zero for one network whose recorded gradients are zero, C125_underflow shows that the condition is needed. Nothing is assumed about overflow: a gradient that is infinite or NaN in one of the runs is exempt, all others are exact multiples."
  },
  {
   "property": "C126",
   "status": "proved",
   "theorems": [
    "Rusty.C126_exact",
    "Rusty.C126_infer",
    "Rusty.C126_certificate"
   ],
   "note": "C126_exact in exact arithmetic, C126_infer in f32, C126_certificate for the order of two outputs. With a softmax layer, Accuracy asks for an accurate exp (ExpAccurate), as in C74."
  },
  {
   "property": "C127",
   "status": "proved",
   "theorems": [
    "Rusty.C127_batch",
    "Rusty.C127_cross_entropy"
   ],
   "note": "C127_batch for any bounds on single examples; C127_cross_entropy combines it with C123 (which assumes an accurate exp, ExpAccurate)."
  },
  {
   "property": "C128",
   "status": "proved",
   "theorems": [
    "Rusty.C128_direction",
    "Rusty.C128_step"
   ],
   "note": "C128_direction is the statement about real numbers for any approximate gradients; C128_step applies it to the gradients of C127. The step is taken in exact arithmetic: the code has no update of parameters."
  },
  {
   "property": "C129",
   "status": "proved",
   "theorems": [
    "Rusty.C129_resume",
    "Rusty.C129_again"
   ],
   "note": "C129_resume, C129_again. The layers without kernels for which loading fails are those of C46."
  },
  {
   "property": "C130",
   "status": "proved",
   "theorems": [
    "Rusty.C130_exact",
    "Rusty.C130_weight",
    "Rusty.C130_bias",
    "Rusty.C130_input",
    "Rusty.C130_real_layer",
    "Rusty.C130_real_input"
   ],
   "note": "C130_real_layer (any change of the parameters of one layer) and C130_real_input (any change of the input) are about infer, get_output and backward of the model over the reals; the parameters of the other layers are equal and the same units are active (SameActive). C130_exact is the same about the formula for the outputs. C130_weight, C130_bias and C130_input are in f32; their assumptions are those of C89 and C74 (a margin at every relu, values in range)."
  },
  {
   "property": "C131",
   "status": "proved",
   "theorems": [
    "Rusty.C131_number",
    "Rusty.C131_infer",
    "Rusty.C131_order"
   ],
   "note": "C131_number for single numbers, C131_infer for predictions, C131_order for the order of two outputs. The shortened network is given by the relation ShortLayer between the layers of two networks built through the API."
  },
  {
   "property": "C132",
   "status": "proved",
   "theorems": [
    "Rusty.C132_agrees",
    "Rusty.C132_operation",
    "Rusty.C132_history"
   ],
   "note": "C132_operation for one call, C132_history for sequences, C132_agrees: the write by write model has the results of the plain one."
  },
  {
   "property": "C133",
   "status": "proved",
   "theorems": [
    "Rusty.C133_matrix",
    "Rusty.C133_convolution",
    "Rusty.C133_pooling",
    "Rusty.C133_silent"
   ],
   "note": "C133_matrix, C133_convolution and C133_pooling for the eleven operations, in the write by write model (C132_agrees ties it to the plain one); C133_silent shows that add and softmax are different."
  },
  {
   "property": "C134",
   "status": "proved",
   "theorems": [
    "Rusty.C134_infer",
    "Rusty.C134_backward",
    "Rusty.C134_modes",
    "Rusty.C134_load",
    "Rusty.C134_bias",
    "Rusty.C134_noticed"
   ],
   "note": "C134_noticed: infer returns only if nothing is missing. C134_infer, C134_backward, C134_modes and C134_load for arbitrary networks; C134_bias is the exception that the statement names."
  },
  {
   "property": "C135",
   "status": "proved",
   "theorems": [
    "Rusty.C135_entries",
    "Rusty.C135_values",
    "Rusty.C135_order",
    "Rusty.C135_distribution",
    "Rusty.C135_average"
   ],
   "note": "C135_entries (one function of the word), C135_values, C135_order, C135_distribution and C135_average; the model of rand's UniformFloat is that of C75, including the loop that lowers the scale."
  },
  {
   "property": "C136",
   "status": "proved",
   "theorems": [
    "Rusty.C136_infer",
    "Rusty.C136_backward",
    "Rusty.C136_panic",
    "Rusty.C136_always",
    "Rusty.C136_training",
    "Rusty.C136_shape",
    "Rusty.C136_pool"
   ],
   "note": "C136_infer, C136_backward (no pooling), C136_panic, C136_always, C136_training; C136_shape: tensors made by the library have the same form if they have the same shape; C136_pool: the restriction on pooling is needed."
  },
  {
   "property": "C137",
   "status": "proved",
   "theorems": [
    "Rusty.C137_load"
   ],
   "note": "C137_load: every file that a tensor save can leave, loaded into any network, gives Err and the network unchanged."
  },
  {
   "property": "C138",
   "status": "partial",
   "theorems": [
    "Rusty.C138_inert_partial",
    "Rusty.C138_empty_partial",
    "Rusty.C138_negation"
   ],
   "note": "C138_inert_partial, C138_empty_partial. The full claim is false of the code: C138_negation gives a network of two softmax layers, built through the API, whose file of 122 bytes Tensor::from_file accepts for every hash order."
  },
  {
   "property": "C139",
   "status": "proved",
   "theorems": [
    "Rusty.C139_windows",
    "Rusty.C139_infer",
    "Rusty.C139_ieee"
   ],
   "note": "C139_windows (any arithmetic); C139_infer (whole networks); C139_ieee: the instance for IEEE floats."
  },
  {
   "property": "C140",
   "status": "proved",
   "theorems": [
    "Rusty.C140_bound",
    "Rusty.C140_stops",
    "Rusty.C140_witness"
   ],
   "note": "C140_bound: at most 2^25 B for any number of examples; C140_stops: gradients 1 add up to min(N, 2^24); C140_witness: a network and an example where this happens."
  },
  {
   "property": "C141",
   "status": "proved",
   "theorems": [
    "Rusty.C141_exists",
    "Rusty.C141_infer"
   ],
   "note": "C141_exists: the network that takes over the preparation exists; C141_infer: every such network predicts from the raw input what the original predicts from the prepared one. Exact arithmetic."
  },
  {
   "property": "C142",
   "status": "proved",
   "theorems": [
    "Rusty.C142_fits",
    "Rusty.C142_not_negative",
    "Rusty.C142_softmax",
    "Rusty.C142_positive",
    "Rusty.C142_one_layer"
   ],
   "note": "C142_fits and C142_softmax (exact arithmetic), C142_not_negative (any arithmetic with the laws that IEEE floats satisfy), C142_positive (softmax, exact arithmetic), C142_one_layer (no single layer fits exclusive or)."
  },
  {
   "property": "C143",
   "status": "proved",
   "theorems": [
    "Rusty.C143_values",
    "Rusty.C143_order",
    "Rusty.C143_constant",
    "Rusty.C143_distribution",
    "Rusty.C143_average"
   ],
   "note": "C143_values, C143_order, C143_constant, C143_distribution, C143_average. f32 arithmetic; the samples are those of the standard normal generator, which is outside the model."
  },
  {
   "property": "C144",
   "status": "proved",
   "theorems": [
    "Rusty.C144_unit",
    "Rusty.C144_layer",
    "Rusty.C144_nan",
    "Rusty.C144_convolutional"
   ],
   "note": "C144_unit, C144_layer; C144_nan and C144_convolutional are concrete runs for the last two sentences."
  },
  {
   "property": "C145",
   "status": "proved",
   "theorems": [
    "Rusty.C145_fully_connected",
    "Rusty.C145_convolutional",
    "Rusty.C145_max_pool",
    "Rusty.C145_softmax",
    "Rusty.C145_same",
    "Rusty.C145_poison"
   ],
   "note": "C145_fully_connected (1), C145_same (2), C145_convolutional (3), C145_max_pool (4), C145_softmax (5), C145_poison (6). That exp of NaN is NaN is a hypothesis of (5) only."
  },
  {
   "property": "C146",
   "status": "proved",
   "theorems": [
    "Rusty.C146_unit",
    "Rusty.C146_channel",
    "Rusty.C146_zeros",
    "Rusty.C146_training",
    "Rusty.C146_spread"
   ],
   "note": "C146_unit, C146_channel, C146_zeros, C146_training, C146_spread."
  },
  {
   "property": "C147",
   "status": "proved",
   "theorems": [
    "Rusty.C147_unreadable",
    "Rusty.C147_type",
    "Rusty.C147_more",
    "Rusty.C147_fewer"
   ],
   "note": "C147_unreadable, C147_type, C147_more, C147_fewer. Files shorter than 2^64 bytes."
  },
  {
   "property": "C148",
   "status": "proved",
   "theorems": [
    "Rusty.C148_batch",
    "Rusty.C148_repair"
   ],
   "note": "C148_batch, C148_repair."
  },
  {
   "property": "C149",
   "status": "proved",
   "theorems": [
    "Rusty.C149_binary",
    "Rusty.C149_sign",
    "Rusty.C149_same",
    "Rusty.C149_convolutional",
    "Rusty.C149_softmax"
   ],
   "note": "C149_binary, C149_sign, C149_same, C149_convolutional, C149_softmax."
  },
  {
   "property": "C150",
   "status": "proved",
   "theorems": [
    "Rusty.C150_determined",
    "Rusty.C150_convolutional",
    "Rusty.C150_read"
   ],
   "note": "C150_determined, C150_convolutional, C150_read."
  },
  {
   "property": "C151",
   "status": "proved",
   "theorems": [
    "Rusty.C151_exact",
    "Rusty.C151_f32"
   ],
   "note": "C151_exact, C151_f32."
  },
  {
   "property": "C152",
   "status": "proved",
   "theorems": [
    "Rusty.C152_unseen",
    "Rusty.C152_ignored",
    "Rusty.C152_f32"
   ],
   "note": "C152_unseen, C152_ignored, C152_f32."
  },
  {
   "property": "C153",
   "status": "proved",
   "theorems": [
    "Rusty.C153_commute",
    "Rusty.C153_transpose",
    "Rusty.C153_neutral",
    "Rusty.C153_rounding",
    "Rusty.C153_exact"
   ],
   "note": "C153_commute, C153_transpose, C153_neutral, C153_rounding, C153_exact."
  },
  {
   "property": "C154",
   "status": "proved",
   "theorems": [
    "Rusty.C154_odds",
    "Rusty.C154_raise",
    "Rusty.C154_margin",
    "Rusty.C154_network"
   ],
   "note": "C154_odds, C154_raise, C154_margin, C154_network."
  },
  {
   "property": "C155",
   "status": "proved",
   "theorems": [
    "Rusty.C155_own",
    "Rusty.C155_others"
   ],
   "note": "C155_others (the law that survives rounding), C155_own (the law that does not, with a witness)."
  },
  {
   "property": "C156",
   "status": "proved",
   "theorems": [
    "Rusty.C156_triangle",
    "Rusty.C156_entries",
    "Rusty.C156_monotone",
    "Rusty.C156_rounding"
   ],
   "note": "C156_triangle, C156_entries (exact arithmetic), C156_monotone (f32), C156_rounding (two laws that rounding breaks, with witnesses)."
  },
  {
   "property": "C157",
   "status": "proved",
   "theorems": [
    "Rusty.C157_exact",
    "Rusty.C157_infer"
   ],
   "note": "C157_exact, C157_infer. The counterpart for fully connected layers is C86."
  },
  {
   "property": "C158",
   "status": "proved",
   "theorems": [
    "Rusty.C158_odds",
    "Rusty.C158_sharper",
    "Rusty.C158_limits",
    "Rusty.C158_network"
   ],
   "note": "C158_odds, C158_sharper, C158_limits, C158_network."
  },
  {
   "property": "C159",
   "status": "proved",
   "theorems": [
    "Rusty.C159_bound",
    "Rusty.C159_direction"
   ],
   "note": "C159_bound, C159_direction."
  },
  {
   "property": "C160",
   "status": "proved",
   "theorems": [
    "Rusty.C160_equal",
    "Rusty.C160_lowest",
    "Rusty.C160_training"
   ],
   "note": "C160_equal, C160_lowest, C160_training."
  }
 ]
}