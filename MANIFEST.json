{
 "claims": [
  {
   "property": "C01",
   "status": "proved",
   "theorems": [
    "Verif.Graph.C01_order_respects_dataflow",
    "Verif.Graph.C01_cyclic_rejected"
   ],
   "note": "Every layer graph, any size, any order of the links."
  },
  {
   "property": "C02",
   "status": "partial",
   "theorems": [
    "Verif.Graph.C02_acyclic_ordered_partial",
    "Verif.Graph.C02_fails_constant_fed"
   ],
   "note": "Fails when a layer is fed by constants only (witness proved); proved otherwise."
  },
  {
   "property": "C03",
   "status": "partial",
   "theorems": [
    "Verif.Graph.C03_no_shared_path_partial",
    "Verif.Graph.C03_fails_duplicate_input"
   ],
   "note": "Fails when a layer takes the same producer twice (witness proved); proved otherwise."
  },
  {
   "property": "C04",
   "status": "partial",
   "theorems": [
    "Verif.Graph.C04_cst_iff_multi_consumer",
    "Verif.Graph.C04_no_shared_cst_partial",
    "Verif.Graph.C04_fails_duplicate_input"
   ],
   "note": "Same restriction as C03."
  },
  {
   "property": "C05",
   "status": "proved",
   "theorems": [
    "Verif.Graph.C05_buffers_declared"
   ],
   "note": "Every graph that tri_topo accepts."
  },
  {
   "property": "C06",
   "status": "partial",
   "theorems": [
    "Verif.Graph.C06_inference_refines_interpreter_partial",
    "Verif.Graph.C06_fails_duplicate_input"
   ],
   "note": "Same restriction as C03; forward functions taken as pure."
  },
  {
   "property": "C07",
   "status": "proved",
   "theorems": [
    "Verif.Graph.C07_in_place"
   ],
   "note": "Every graph that tri_topo accepts."
  },
  {
   "property": "C08",
   "status": "proved",
   "theorems": [
    "Verif.Layers.C08_dense_code",
    "Verif.Layers.C08_dense_forward",
    "Verif.Layers.C08_dense"
   ],
   "note": "Every size, weights, input and activation, operands in place or not; exact arithmetic in any commutative ring."
  },
  {
   "property": "C09",
   "status": "partial",
   "theorems": [
    "Verif.Layers.C09_matmul_code",
    "Verif.Layers.C09_matmul_partial",
    "Verif.Layers.C09_fails_broadcast"
   ],
   "note": "Operands with the same number of channels: every size, in place or not. Where the leading dimensions are broadcast, the generated code reads outside the operand: C09_fails_broadcast."
  },
  {
   "property": "C10",
   "status": "partial",
   "theorems": [
    "Verif.Layers.C10_gemm_partial",
    "Verif.Layers.C10_fails_scalar_bias"
   ],
   "note": "All four transposition cases, every size, bias of the size of the result; a scalar bias, which the constructor accepts, is read as an array: C10_fails_scalar_bias."
  },
  {
   "property": "C14",
   "status": "proved",
   "theorems": [
    "Verif.Layers.C14_broadcast_code",
    "Verif.Layers.C14_broadcast_forward",
    "Verif.Layers.C14_forward_defined",
    "Verif.Layers.C14_broadcast",
    "Verif.Layers.C14_forward_raises_small_first"
   ],
   "note": "Every number of operands, every broadcastable shapes, in place or not; also proved: when the Python reference raises."
  },
  {
   "property": "C15",
   "status": "proved",
   "theorems": [
    "Verif.Layers.C15_placement",
    "Verif.Layers.C15_concatenate"
   ],
   "note": "Every axis, number of operands and sizes."
  },
  {
   "property": "C16",
   "status": "proved",
   "theorems": [
    "Verif.Layers.C16_gather"
   ],
   "note": "Every axis and index list."
  },
  {
   "property": "C17",
   "status": "proved",
   "theorems": [
    "Verif.Layers.C17_gather_elements"
   ],
   "note": "Every axis and index tensor."
  },
  {
   "property": "C18",
   "status": "proved",
   "theorems": [
    "Verif.Layers.C18_tile"
   ],
   "note": "Every repetition count."
  },
  {
   "property": "C19",
   "status": "proved",
   "theorems": [
    "Verif.Layers.C19_transpose",
    "Verif.Layers.C19_transpose_bijective"
   ],
   "note": "Every permutation."
  },
  {
   "property": "C20",
   "status": "proved",
   "theorems": [
    "Verif.Layers.C20_constant_pad"
   ],
   "note": "Every size and amount of padding."
  },
  {
   "property": "C21",
   "status": "partial",
   "theorems": [
    "Verif.Layers.C21_edge_pad_partial",
    "Verif.Layers.C21_reflect_pad_partial",
    "Verif.Layers.C21_wrap_pad_partial",
    "Verif.Layers.C21_fails_activation_twice",
    "Verif.Layers.C21_fails_reflect_singleton",
    "Verif.Layers.C21_fails_wrap_full"
   ],
   "note": "Proved for idempotent activations, axes of at least two elements (reflect) and front padding smaller than the axis (wrap); the code violates the property outside these conditions (witnesses proved)."
  },
  {
   "property": "C11",
   "status": "partial",
   "theorems": [
    "Verif.Layers.C11_conv6_code",
    "Verif.Layers.C11_conv_forward_partial",
    "Verif.Layers.C11_conv6_partial",
    "Verif.Layers.C11_fails_dilation"
   ],
   "note": "Code = convolution for every dilation; equality with the Python reference for dilation 1 only, because the reference ignores the dilation rate (witness proved)."
  },
  {
   "property": "C12",
   "status": "partial",
   "theorems": [
    "Verif.Layers.C12_std_gemm_code",
    "Verif.Layers.C12_std_gemm_partial",
    "Verif.Layers.C12_std_gemm_forward",
    "Verif.Layers.C12_fails_dilation"
   ],
   "note": "Equal to 6loops for dilation 1; std_gemm_nn ignores dilation (witness proved)."
  },
  {
   "property": "C13",
   "status": "partial",
   "theorems": [
    "Verif.Layers.C13_max_code_partial",
    "Verif.Layers.C13_avg_code_partial",
    "Verif.Layers.C13_max_forward_partial",
    "Verif.Layers.C13_avg_forward_partial",
    "Verif.Layers.C13_max_partial",
    "Verif.Layers.C13_avg_partial",
    "Verif.Layers.C13_fails_swapped_pads",
    "Verif.Layers.C13_fails_negative",
    "Verif.Layers.C13_fails_average",
    "Verif.Layers.C13_fails_ignored_padding"
   ],
   "note": "Code = activated window maximum/average when pad_top = pad_left (the template exchanges them: C13_fails_swapped_pads). Python = window maximum/average with zero top/left padding, or (max) four non-zero paddings and non-negative input; otherwise refuted (C13_fails_negative, C13_fails_average, C13_fails_ignored_padding). The Python reference does not apply the fused activation; the statement applies it to the reference result."
  },
  {
   "property": "C22",
   "status": "partial",
   "theorems": [
    "Verif.Layers.C22_flatten_partial",
    "Verif.Layers.C22_in_place",
    "Verif.Layers.C22_constant",
    "Verif.Layers.C22_fails_other_buffer",
    "Verif.Layers.C22_fails_second_consumer"
   ],
   "note": "Correct when the producer's tensor is in the Flatten layer's own buffer (always so when Flatten is its producer's only consumer); otherwise the generated code reads the wrong array (refuted in general and by a loadable network)."
  },
  {
   "property": "C23",
   "status": "proved",
   "theorems": [
    "Verif.Layers.C23_input",
    "Verif.Layers.C23_output",
    "Verif.Layers.C23_vector",
    "Verif.Layers.C23_roundtrip",
    "Verif.Layers.C23_each_cell_once"
   ],
   "note": "Every tensor, both directions."
  },
  {
   "property": "C24",
   "status": "partial",
   "theorems": [
    "Verif.Layers.C24_reduce_partial",
    "Verif.Layers.C24_sum_prod_mean_partial",
    "Verif.Layers.C24_fails_batch_axis",
    "Verif.Layers.C24_fails_noop_elsewhere",
    "Verif.Layers.C24_fails_compare_elsewhere",
    "Verif.Layers.C24_fails_start",
    "Verif.Layers.C24_fails_start_out_of_bounds"
   ],
   "note": "All five reductions, all axis sets; the excluded cases are exactly those refuted by the C24_fails theorems (axes (0,), no-op or two-axis max/min not in place, two-axis max/min with starting element outside the slice). The reference never applies the fused activation; the statement applies it to the reference result."
  },
  {
   "property": "C25",
   "status": "partial",
   "theorems": [
    "Verif.Layers.C25_softmax_partial",
    "Verif.Layers.C25_forward",
    "Verif.Layers.C25_distribution",
    "Verif.Layers.C25_fails_ignored_axis",
    "Verif.Layers.C25_fails_no_axis"
   ],
   "note": "Code and reference are softmax along the axis, in place or not; positivity and sum 1 over the reals. Partial: when the tensor has a single non-trivial dimension the axis is ignored (C25_fails_ignored_axis), and with no axis no C is generated (C25_fails_no_axis)."
  },
  {
   "property": "C26",
   "status": "proved",
   "theorems": [
    "Verif.Layers.C26_batch_norm",
    "Verif.Layers.C26_centre"
   ],
   "note": "Any field, any sqrt, any activation, in place or not."
  },
  {
   "property": "C29",
   "status": "proved",
   "theorems": [
    "Verif.Layers.C29_text",
    "Verif.Layers.C29_text_quotient",
    "Verif.Layers.C29_reference",
    "Verif.Layers.C29_layer",
    "Verif.Layers.C29_clip_check_needed",
    "Verif.Layers.C29_fails_sum_text"
   ],
   "note": "The activation text is modelled as tokens read by a parser of C expressions; its value is the Python compute() and the mathematical function. C29_fails_sum_text shows that splicing a sum would be wrong (no layer does it)."
  },
  {
   "property": "C27",
   "status": "partial",
   "theorems": [
    "Verif.Layers.C27_nearest_partial",
    "Verif.Layers.C27_round_nearest",
    "Verif.Layers.C27_fails_floor",
    "Verif.Layers.C27_fails_align_corners",
    "Verif.Layers.C27_fails_asymmetric",
    "Verif.Layers.C27_fails_not_C"
   ],
   "note": "Proved for half_pixel/pytorch_half_pixel with the two round modes, asymmetric with floor, align_corners with floor; the other combinations the constructor accepts are refuted by the C27_fails theorems (reads outside the input, different pixel, or text that is not C)."
  },
  {
   "property": "C28",
   "status": "partial",
   "theorems": [
    "Verif.Layers.C28_linear_partial",
    "Verif.Layers.C28_linear1_partial",
    "Verif.Layers.C28_cubic_partial",
    "Verif.Layers.C28_linear_constant",
    "Verif.Layers.C28_cubic_constant",
    "Verif.Layers.C28_fails_linear_row",
    "Verif.Layers.C28_fails_one_pixel",
    "Verif.Layers.C28_fails_align_corners"
   ],
   "note": "Linear: inputs with at least two rows and columns, or a single row/column of two pixels; cubic: every input of more than one pixel; modes half_pixel, pytorch_half_pixel, asymmetric. The rest is refuted."
  },
  {
   "property": "C30",
   "status": "partial",
   "theorems": [
    "Verif.Layers.C30_tile",
    "Verif.Layers.C30_winograd_run",
    "Verif.Layers.C30_winograd_partial",
    "Verif.Layers.C30_fails_odd"
   ],
   "note": "Exact arithmetic in any field of characteristic zero. Proved for even output height and width; for odd ones C30_winograd_run says exactly what is left (stale values) and C30_fails_odd refutes the claim."
  },
  {
   "property": "C50",
   "status": "partial",
   "theorems": [
    "Verif.Layers.C50_block_code",
    "Verif.Layers.C50_block",
    "Verif.Layers.C50_binary_parameters",
    "Verif.Layers.C50_buildable",
    "Verif.Layers.C50_fails_block",
    "Verif.Layers.C50_fails_text_parameters",
    "Verif.CText.C50_block_text"
   ],
   "note": "Also on the text: C50_block_text runs the rendered template. Holds with the binary parameter file; with bin_dataset=False the text parameter file holds the weights in the wrong order (refuted)."
  },
  {
   "property": "C51",
   "status": "partial",
   "theorems": [
    "Verif.Layers.C51_depthwise_code",
    "Verif.Layers.C51_reference_groups",
    "Verif.Layers.C51_fails_reference",
    "Verif.CText.C51_depthwise_text"
   ],
   "note": "The generated text (read after erasing its pointer casts, which change no value) is the depth-wise convolution; the Python reference is not (every filter reads channel 0)."
  },
  {
   "property": "C31",
   "status": "partial",
   "theorems": [
    "Verif.Gen.C31_same_partial",
    "Verif.Gen.C31_valid",
    "Verif.Gen.C31_list",
    "Verif.Gen.C31_conv_accepted",
    "Verif.Gen.C31_other_string",
    "Verif.Gen.C31_fails_dilation",
    "Verif.Gen.C31_fails_dilated_conv_rejected"
   ],
   "note": "Proved without dilation for every size, kernel and stride; refuted with dilation (sign error in the dilated kernel size)."
  },
  {
   "property": "C32",
   "status": "proved",
   "theorems": [
    "Verif.Gen.C32_arrays_large_enough",
    "Verif.Gen.C32_path_size_attained"
   ],
   "note": "For every network that loads; without the optimisation patterns (which may renumber layers)."
  },
  {
   "property": "C33",
   "status": "proved",
   "theorems": [
    "Verif.Opt.C33_fold",
    "Verif.Opt.C33_code",
    "Verif.Opt.realSem_ok",
    "Verif.Opt.C35_optimise_preserves_layers_partial"
   ],
   "note": "Folding identity over any field and any sqrt, for the reference convolution and for the generated code; that the rewriting of the network applies it correctly is C35."
  },
  {
   "property": "C34",
   "status": "partial",
   "theorems": [
    "Verif.Opt.C34_silu",
    "Verif.Opt.C35_optimise_preserves_layers_partial",
    "Verif.Opt.C36_optimised_code_partial",
    "Verif.Opt.C34_fails_buffer"
   ],
   "note": "The function is preserved for every real tensor and both argument orders; but for Multiply(x, Sigmoid(x)) with one consumer the generated C of the optimised network is wrong (C34_fails_buffer)."
  },
  {
   "property": "C35",
   "status": "partial",
   "theorems": [
    "Verif.Opt.C35_optimise_finishes",
    "Verif.Opt.C35_optimise_preserves_layers_partial",
    "Verif.Opt.C35_optimise_preserves_output_partial",
    "Verif.Opt.C35_fails_flatten",
    "Verif.Opt.C35_fails_first"
   ],
   "note": "Whole pass (all registered patterns, to its end), every network. Restriction: no activation layer follows a layer that ignores its activation function (refuted otherwise: C35_fails_flatten, C35_fails_first)."
  },
  {
   "property": "C36",
   "status": "partial",
   "theorems": [
    "Verif.Opt.C36_indices_partial",
    "Verif.Opt.C36_consecutive_partial",
    "Verif.Opt.C36_interp_partial",
    "Verif.Opt.C36_optimised_code_partial",
    "Verif.Opt.C36_fails_collision",
    "Verif.Opt.C36_fails_dict"
   ],
   "note": "Proved for networks in which merged layers have consecutive indices and multi-consumer layers run after all lower-numbered ones; refuted otherwise (two layers with the same index; a saved copy lost, giving wrong C output)."
  },
  {
   "property": "C37",
   "status": "proved",
   "theorems": [
    "Verif.Gen.C37_selection",
    "Verif.Gen.C37_versioning",
    "Verif.Gen.C37_versioning_total",
    "Verif.Gen.C37_default_known",
    "Verif.Gen.C37_documented_known",
    "Verif.Gen.C37_fails_duplicate"
   ],
   "note": "For every layer list with distinct indices (which C36 says loading preserves, except in its refuted case) and every request dictionary; with a duplicated index the claim fails (C37_fails_duplicate)."
  },
  {
   "property": "C38",
   "status": "proved",
   "theorems": [
    "Verif.Gen.C38_refused_iff",
    "Verif.Gen.C38_accepted",
    "Verif.Gen.C38_lookup",
    "Verif.Gen.C38_list",
    "Verif.Gen.C38_factories"
   ],
   "note": "Every history of registrations."
  },
  {
   "property": "C39",
   "status": "partial",
   "theorems": [
    "Verif.Gen.C39_refuses",
    "Verif.Gen.C39_no_overwrite",
    "Verif.Gen.C39_creates",
    "Verif.Gen.C39_twice",
    "Verif.Gen.C39_append_only",
    "Verif.Gen.C39_custom",
    "Verif.Gen.C39_fails_bin",
    "Verif.Gen.C39_fails_bin_missing",
    "Verif.Gen.C39_fails_documented"
   ],
   "note": "Never overwrites an announced file, at any crash point; creates exactly the announced files without binary data. Refuted with bin_dataset: the binary files are not announced, so they are overwritten."
  },
  {
   "property": "C40",
   "status": "proved",
   "theorems": [
    "Verif.Gen.C40_calls",
    "Verif.Gen.C40_block",
    "Verif.Gen.C40_driver"
   ],
   "note": "Every number of samples and batch size, every interleaving of the OpenMP threads."
  },
  {
   "property": "C41",
   "status": "proved",
   "theorems": [
    "Verif.Gen.C41_align_up",
    "Verif.Gen.C41_blocks",
    "Verif.Gen.C41_disjoint",
    "Verif.Gen.C41_fails_not_power"
   ],
   "note": "Every sequence of block sizes, every power of two."
  },
  {
   "property": "C42",
   "status": "proved",
   "theorems": [
    "Verif.Gen.C42_shortened",
    "Verif.Gen.C42_exact",
    "Verif.Gen.C42_fails_inf"
   ],
   "note": "Every finite double; an infinite parameter yields text that is no C constant (C42_fails_inf)."
  },
  {
   "property": "C43",
   "status": "partial",
   "theorems": [
    "Verif.Gen.C43_parse_partial",
    "Verif.Gen.C43_roundtrip",
    "Verif.Gen.C43_fails_newline",
    "Verif.Gen.C43_fails_unicode"
   ],
   "note": "Exact set of accepted strings characterised: besides Qm.n, a trailing newline and non-ASCII decimal digits are accepted (refuted)."
  },
  {
   "property": "C49",
   "status": "partial",
   "theorems": [
    "Verif.Gen.C49_text",
    "Verif.Gen.C49_documented",
    "Verif.Gen.C49_fails"
   ],
   "note": "Every path: documented extensions reach their importers; the test is a substring search in the last four characters, so other paths are accepted too (refuted)."
  },
  {
   "property": "C44",
   "status": "partial",
   "theorems": [
    "Verif.Gen.C44_shift",
    "Verif.Gen.C44_reference",
    "Verif.Gen.C44_text",
    "Verif.Gen.C44_agree",
    "Verif.Gen.C44_precision_partial",
    "Verif.Gen.C44_no_overflow",
    "Verif.Gen.C44_matmul",
    "Verif.Gen.C44_parameters",
    "Verif.Gen.C44_rounding",
    "Verif.Gen.C44_fails_clamped",
    "Verif.Gen.C44_fails_saturation",
    "Verif.Gen.C44_fails_undefined",
    "Verif.Gen.C44_fails_silent"
   ],
   "note": "Same integer in C and Python for every accumulator, format, width and wrapped activation (shift counts below the width of the promoted type). The one-unit bound is proved when the shift is not clamped and the result fits; refuted otherwise."
  },
  {
   "property": "C45",
   "status": "proved",
   "theorems": [
    "Verif.Gen.C45_loads",
    "Verif.Gen.C45_code",
    "Verif.Gen.nnet_memory_exists"
   ],
   "note": "Every file of the format, every network size; from the text of the file to the generated code."
  },
  {
   "property": "C46",
   "status": "proved",
   "theorems": [
    "Verif.Gen.C46_pre",
    "Verif.Gen.C46_post",
    "Verif.Gen.C46_network",
    "Verif.Gen.C46_input_overwritten",
    "Verif.Gen.C46_fails_unordered",
    "Verif.Gen.C46_fails_nan",
    "Verif.CText.C46_pre_text",
    "Verif.CText.C46_post_text"
   ],
   "note": "Also on the rendered texts (C46_pre_text, C46_post_text). Every input without NaN and every description with min <= max; C46_fails_* show that both hypotheses are needed."
  },
  {
   "property": "C47",
   "status": "partial",
   "theorems": [
    "Verif.Gen.C47_floats",
    "Verif.Gen.C47_verdict_partial",
    "Verif.Gen.C47_complete_files",
    "Verif.Gen.C47_reported_max",
    "Verif.Gen.C47_fails",
    "Verif.Gen.C47_fails_truncated",
    "Verif.Gen.C47_fails_longer_line",
    "Verif.Gen.C47_fails_extra_line",
    "Verif.Gen.C47_fails_nan_hidden"
   ],
   "note": "Exact characterisation of the verdict (iff) for every pair of files; the claim itself is refuted for truncated files, longer second lines and one line too many; it holds for complete files."
  },
  {
   "property": "C48",
   "status": "partial",
   "theorems": [
    "Verif.Gen.C48_reorder_any",
    "Verif.Gen.C48_reorder",
    "Verif.Gen.C48_python_any",
    "Verif.Gen.C48_python_partial",
    "Verif.Gen.C48_c",
    "Verif.Gen.C48_targets",
    "Verif.Gen.C48_targets_keras",
    "Verif.Gen.C48_compare",
    "Verif.Gen.C48_fails_two_digits",
    "Verif.Gen.C48_fails_wrong_layer",
    "Verif.Gen.C48_fails_duplicate",
    "Verif.Gen.C48_fails_no_target"
   ],
   "note": "reorder_outputs and extract_outputs_c proved for every list of records; extract_outputs_python only for one-digit indices (it compares the last character), refuted otherwise."
  },
  {
   "property": "C52",
   "status": "partial",
   "theorems": [
    "Verif.Net.C52_network_partial",
    "Verif.Net.op_correct",
    "Verif.Net.C52_memory_exists",
    "Verif.Net.C52_not_channels_last_rank"
   ],
   "note": "Composition of C06, C32 and the layer theorems, all layer kinds modelled, any network size. Partial: inherits the exclusions of the layer claims (Op.OK, Op.InputsOK), exact arithmetic in an ordered field, no debug, normalisation or quantisation. C52_memory_exists: the memory hypothesis can always be met."
  },
  {
   "property": "C53",
   "status": "partial",
   "theorems": [
    "Verif.CText.activation_renders",
    "Verif.CText.broadcast_renders",
    "Verif.CText.concat_renders",
    "Verif.CText.conv6_renders",
    "Verif.CText.maxPool_renders",
    "Verif.CText.avgPool_renders",
    "Verif.CText.direct_renders",
    "Verif.CText.gatherElements_renders",
    "Verif.CText.gather_renders",
    "Verif.CText.gemmNN_renders",
    "Verif.CText.gemmNT_renders",
    "Verif.CText.gemmTN_renders",
    "Verif.CText.gemmTT_renders",
    "Verif.CText.input_renders",
    "Verif.CText.output_renders",
    "Verif.CText.flatten_renders",
    "Verif.CText.constant_renders",
    "Verif.CText.dense_renders",
    "Verif.CText.matmul_renders",
    "Verif.CText.tile_renders",
    "Verif.CText.transpose_renders",
    "Verif.CText.softmax1_renders",
    "Verif.CText.softmax3_renders",
    "Verif.CText.batchNorm_renders",
    "Verif.CText.pre_renders",
    "Verif.CText.post_renders",
    "Verif.CText.constantPad_renders",
    "Verif.CText.edgePad_renders",
    "Verif.CText.reflectPad_renders",
    "Verif.CText.wrapPad_renders",
    "Verif.CText.reduce_renders",
    "Verif.CText.nearest_renders",
    "Verif.CText.linear2_renders",
    "Verif.CText.cubic1_renders",
    "Verif.CText.cubic2_renders",
    "Verif.CText.linear1_renders",
    "Verif.CText.nearest_isC_iff",
    "Verif.CText.linear2_isC_iff",
    "Verif.CText.cubic2_isC_iff",
    "Verif.CText.linear1_isC_iff",
    "Verif.CText.cubic1_isC_iff",
    "Verif.CText.resizeLinear_renders",
    "Verif.CText.resizeCubic_renders",
    "Verif.CText.stdGemm_renders"
   ],
   "note": "For each layer kind listed: the characters of the template file (copied by tools/embed_templates.py), tokenised, mustache-rendered and parsed inside Lean, then run by a C semantics. Partial: templates not listed are still read by hand; chevron's rendering is modelled for the tags these templates use."
  },
  {
   "property": "C54",
   "status": "partial",
   "theorems": [
    "Verif.CText.C54_source_renders",
    "Verif.CText.Emits.renders",
    "Verif.CText.Emits.clean",
    "Verif.CText.C54_activation_compute"
   ],
   "note": "Every network whose layers are produced by the templates tied in C53 (relation Emits). Partial: layers produced by the templates not tied (winograd, direct_block, depth-wise, indirect gemm, normalisation, debug printing) are outside Emits."
  },
  {
   "property": "C55",
   "status": "partial",
   "theorems": [
    "Verif.CText.C55_text_end_to_end_partial"
   ],
   "note": "C54 composed with C52; inherits their exclusions. SourceExamples shows a residual network meeting all hypotheses."
  },
  {
   "property": "C56",
   "status": "partial",
   "theorems": [
    "Verif.Onnx.C56_links",
    "Verif.Onnx.C56_ordered",
    "Verif.Onnx.C56_names_resolved",
    "Verif.Onnx.C56_tile_reduce_names",
    "Verif.Onnx.C56_bypass_shared_raises",
    "Verif.Onnx.C56_constant_operand_raises",
    "Verif.Onnx.C56_shared_example",
    "Verif.Onnx.C56_constant_example",
    "Verif.Onnx.C56_reduce_example",
    "Verif.Onnx.C56_input_layer",
    "Verif.Onnx.C56_constants"
   ],
   "note": "Links and resolution for every model; acyclicity and ordering for models that evaluate under the ONNX specification. Partial: acyclicity is stated for valid models of supported nodes. Also proved: what raises (shared operand of a skipped node, Constant outputs as operands, Tile and Reduce operands whose name has more than one character)."
  },
  {
   "property": "C57",
   "status": "partial",
   "theorems": [
    "Verif.Onnx.C57_axis",
    "Verif.Onnx.C57_softmax_partial",
    "Verif.Onnx.C57_concat_partial",
    "Verif.Onnx.C57_gather",
    "Verif.Onnx.C57_gather_elements",
    "Verif.Onnx.C57_transpose",
    "Verif.Onnx.C57_gather_default_raises",
    "Verif.Onnx.C57_transpose_rank_raises",
    "Verif.Onnx.C57_softmax_default_ones",
    "Verif.Onnx.C57_softmax_default_wrong",
    "Verif.Onnx.C57_softmax_before13_partial",
    "Verif.Onnx.C57_softmax_before13_wrong",
    "Verif.Onnx.C57_softmax_before13_example",
    "Verif.Onnx.C57_softmax_example",
    "Verif.Onnx.C57_tile",
    "Verif.Onnx.C57_reduce",
    "Verif.Onnx.C57_reduce_opset",
    "Verif.Onnx.C57_gather_accepts",
    "Verif.Onnx.C57_symbolic_batch",
    "Verif.Onnx.C57_tile_example",
    "Verif.Onnx.C57_reduce_example"
   ],
   "note": "Refuted for the default axis of Softmax before opset 13 on matrices (C57_softmax_default_wrong: the layer returns ones). With an axis, before opset 13: right where the axes after it have one element, otherwise the layer normalises along one axis only (C57_softmax_before13_wrong)."
  },
  {
   "property": "C58",
   "status": "partial",
   "theorems": [
    "Verif.Onnx.C58_mul_partial",
    "Verif.Onnx.C58_mul_ignores",
    "Verif.Onnx.C58_sub_adds",
    "Verif.Onnx.C58_sub_ignores",
    "Verif.Onnx.C58_div_multiplies",
    "Verif.Onnx.C58_sub_example",
    "Verif.Onnx.C58_max_min",
    "Verif.Onnx.C58_max_example"
   ],
   "note": "What the layer returns, in all cases: Mul is right unless an element of the initializer is 1 (then the initializer is ignored); Sub adds the initializer, Div multiplies by it: the claim is refuted for them."
  },
  {
   "property": "C59",
   "status": "partial",
   "theorems": [
    "Verif.Onnx.C59_conv_partial",
    "Verif.Onnx.C59_max_pool_partial",
    "Verif.Onnx.C59_average_pool_partial",
    "Verif.Onnx.C59_global_average_pool",
    "Verif.Onnx.C59_gemm",
    "Verif.Onnx.C59_strides",
    "Verif.Onnx.C59_dilations",
    "Verif.Onnx.C59_pool_dilations",
    "Verif.Onnx.C59_pool_kernel",
    "Verif.Onnx.C59_group_raises",
    "Verif.Onnx.C59_gemm_no_bias_raises",
    "Verif.Onnx.C59_gemm_alpha_raises",
    "Verif.Onnx.C59_clip_scalar_raises",
    "Verif.Onnx.C59_clip_inputs_raises",
    "Verif.Onnx.C59_conv_example"
   ],
   "note": "Right for equal strides, no dilation, one group, and for pooling square kernels without padding. C59_strides, C59_dilations, C59_pool_kernel, C59_pool_dilations: other values are silently replaced by those of the first axis or ignored; groups, missing biases and scalar bounds raise."
  },
  {
   "property": "C60",
   "status": "partial",
   "theorems": [
    "Verif.Onnx.C60_import_correct_partial",
    "Verif.Onnx.C60_example"
   ],
   "note": "Every model of supported nodes (Supported lists the restrictions per operator, those of C57 to C59), any number of nodes and any graph with one input and one output. Not modelled: Resize, LSTM, Max, Min, Mean, Tile, Reduce, LRN, Shape nodes, more than four axes, batches."
  },
  {
   "property": "C61",
   "status": "partial",
   "theorems": [
    "Verif.Onnx.C61_onnx_to_c_partial",
    "Verif.Onnx.C61_generable_example",
    "Verif.Onnx.import_generable",
    "Verif.Onnx.Origin.size",
    "Verif.Onnx.Origin.inSizes"
   ],
   "note": "C60 composed with C55; inherits their exclusions. The sizes of the arrays, the number of operands and the in-place conditions are derived from the model (import_generable); the remaining conditions on the imported layers are CodeOk, decidable once the network is known. No optimisation, quantisation or debug."
  },
  {
   "property": "C62",
   "status": "partial",
   "theorems": [
    "Verif.CText.C62_files",
    "Verif.CText.C62_header_unique",
    "Verif.CText.C62_params_unique",
    "Verif.CText.C62_linked",
    "Verif.CText.C62_memory",
    "Verif.CText.C62_empty_not_declared"
   ],
   "note": "Every network that loads; the three texts are rendered from the template files. Partial: naming (C62_linked) is for the layers of C54 and when no parameter array is empty: an empty array is not declared although the text of its layer names it (C62_empty_not_declared). #include, #define lines and the alignment attributes are tokens without meaning here."
  },
  {
   "property": "C63",
   "status": "partial",
   "theorems": [
    "Verif.CText.C63_program_partial",
    "Verif.CText.C63_example",
    "Verif.Onnx.C63_onnx_program_partial"
   ],
   "note": "C55 from the memory that the generated definitions give; composed with C60. Inherits the exclusions of C52, C54, C60; parameters are doubles (exactly printed, C42)."
  },
  {
   "property": "C64",
   "status": "partial",
   "theorems": [
    "Verif.Onnx.C64_onnx_program_partial",
    "Verif.Onnx.C64_example",
    "Verif.Onnx.import_texts",
    "Verif.Onnx.import_inputsOK"
   ],
   "note": "Every layer the importer makes for a supported node has a text (import_texts); the program made of the generated files computes the model's value. Partial: the operators of Supported; exact arithmetic; Clip nodes have both bounds (an omitted bound is an infinity, which Python prints as inf and C does not know); no producer is used twice by one layer (SimpleInputs); CodeOk."
  },
  {
   "property": "C65",
   "status": "partial",
   "theorems": [
    "Verif.Keras.C65_sequential",
    "Verif.Keras.C65_functional",
    "Verif.Keras.C65_sequential_skipped_raises",
    "Verif.Keras.C65_functional_skipped_raises",
    "Verif.Keras.C65_softmax_bypassed"
   ],
   "note": "Links and layers for every model that the importer accepts. Partial: for functional models a softmax activation is only right on the last layer: C65_softmax_bypassed exhibits a model whose softmax is bypassed (later layers read the layer before the added Softmax)."
  },
  {
   "property": "C66",
   "status": "partial",
   "theorems": [
    "Verif.Keras.C66_import_correct_partial",
    "Verif.Keras.C66_example",
    "Verif.Keras.C66_no_bias_raises",
    "Verif.Keras.C66_partial_bn_raises",
    "Verif.Keras.C66_concat_default_raises",
    "Verif.Keras.C66_bn_axis_ignored",
    "Verif.Keras.C66_groups_ignored",
    "Verif.Keras.C66_second_stride_ignored"
   ],
   "note": "Every model of supported layers (Supported and Valid list the restrictions: Dense on vectors, Conv2D with equal strides and no dilation, square pooling windows without padding, ...), any number of layers and any graph. Configurations outside are shown to raise or to be ignored silently (groups, second stride, axis of BatchNormalization). Average is not covered; exact real arithmetic."
  },
  {
   "property": "C67",
   "status": "partial",
   "theorems": [
    "Verif.Keras.C67_keras_program_partial",
    "Verif.Keras.C67_sequential_partial",
    "Verif.Keras.C67_functional_partial",
    "Verif.Keras.C67_example",
    "Verif.Keras.C67_functional_example"
   ],
   "note": "C66 composed with C63, with a text shown to exist for every layer and the sizes derived from the model. Partial: inherits the restrictions of C66 and C63; functional models: no layer reads the same layer twice, Flatten is the only consumer of its producer, the output is not a Maximum or Minimum."
  },
  {
   "property": "C68",
   "status": "partial",
   "theorems": [
    "Verif.Torch.C68_import_correct_partial",
    "Verif.Torch.C68_input_shape_partial",
    "Verif.Torch.C68_example",
    "Verif.Torch.C68_leaky_relu",
    "Verif.Torch.C68_alpha_ignored",
    "Verif.Torch.C68_second_stride_ignored",
    "Verif.Torch.C68_pool_dilation_ignored",
    "Verif.Torch.C68_linear_no_bias_raises",
    "Verif.Torch.C68_conv_two_args_raises",
    "Verif.Torch.C68_cat_negative_raises",
    "Verif.Torch.C68_default_stride_raises",
    "Verif.Torch.C68_relu_on_input",
    "Verif.Torch.C68_relu_after_pool",
    "Verif.Torch.C68_operand_overwritten",
    "Verif.Torch.C68_unknown_dropped",
    "Verif.Torch.C68_unknown_examples"
   ],
   "note": "Every program of supported calls (Supported and Valid list the restrictions: batch of one, equal strides, no dilation, one group, square kernels, batch_norm after a convolution, activation functions whose operand no other call reads), any number of nodes and any graph; acceptance by the importer is part of the conclusion. Outside: what raises and what is silently changed is proved (unknown operators dropped, leaky_relu as relu, alpha ignored, operands of fused calls overwritten). Exact real arithmetic."
  },
  {
   "property": "C69",
   "status": "partial",
   "theorems": [
    "Verif.Torch.C69_torch_program_partial",
    "Verif.Torch.C69_example"
   ],
   "note": "C68 composed with C63, with a text shown to exist for every layer and the sizes derived from the program. Partial: inherits the restrictions of C68 and C63; no sum or concatenation reads a tensor twice or the result of a dropout or flatten; all values are greater than -INFINITY."
  },
  {
   "property": "C70",
   "status": "partial",
   "theorems": [
    "Verif.Export.C70_export_correct_partial",
    "Verif.Export.C70_example",
    "Verif.Export.C70_output_declared",
    "Verif.Export.C70_output_rank",
    "Verif.Export.C70_attributes_typed",
    "Verif.Export.C70_factor_one",
    "Verif.Export.C70_unknown_format",
    "Verif.Export.C70_matmul_raises",
    "Verif.Export.C70_constant_raises",
    "Verif.Export.C70_dense_not_onnx",
    "Verif.Export.C70_silu_not_onnx",
    "Verif.Export.C70_fused_silu_not_onnx",
    "Verif.Export.C70_average_not_onnx",
    "Verif.Export.C70_add_three",
    "Verif.Export.C70_linear_layer_dropped",
    "Verif.Export.C70_linear_layer_undefined",
    "Verif.Export.C70_slope_dropped",
    "Verif.Export.C70_clip_bounds_dropped",
    "Verif.Export.C70_softmax_axis_dropped",
    "Verif.Export.C70_group_dropped",
    "Verif.Export.C70_conv_pads_swapped",
    "Verif.Export.C70_pool_pads_swapped",
    "Verif.Export.C70_conv_pads_dims",
    "Verif.Export.C70_pool_activation",
    "Verif.Export.C70_add_constant",
    "Verif.Export.C70_constant_squeezed",
    "Verif.Export.C70_gather_indices_float",
    "Verif.Export.C70_tile_repeats_float",
    "Verif.Export.C70_pad_not_imported"
   ],
   "note": "Channels-first networks with one input, of Flatten, ActivationLayer, Gemm, Conv (dilation 1, equal top and right padding), unpadded pooling, BatchNormalization, Softmax on the last axis, Transpose, Pad, Add/Sub/Mul/Div with one or two operands, Concat. Partial: Gather, GatherElements, Tile, Reduce, Resize, Maximum and Minimum are modelled but not in the theorem; the excluded cases of the covered layers are refuted by the other theorems."
  },
  {
   "property": "C71",
   "status": "partial",
   "theorems": [
    "Verif.OptNet.C71_optimised_program_partial",
    "Verif.OptNet.C71_memory_exists",
    "Verif.OptNet.C71_example"
   ],
   "note": "C33-C36 with the layers of C52: folded weights, activation functions and renumbered parameters are concrete, the arrays have the sizes declared for the optimised layers. Partial: channels-first, exact real arithmetic, the layers of C52, and the conditions Optimisable: no activation layer after a layer that does not apply its function (refuted otherwise: C35_fails_flatten), indices in the order of the layers (refuted otherwise: C36_fails_collision, C36_fails_dict, C34_fails_buffer)."
  },
  {
   "property": "C72",
   "status": "partial",
   "theorems": [
    "Verif.Net.C72_any_steps_partial",
    "Verif.Net.C72_test_run_partial",
    "Verif.Net.C72_example",
    "Verif.Gen.C40_driver_rows"
   ],
   "note": "C40 with the programs of C52: that no layer's code changes a size or a constant array is proved for every operation, and the result of a call does not depend on the contents of its context. C72_any_steps takes the steps of a call at any granularity. Partial: the layers, the data formats and the exact real arithmetic of C52, sequentially consistent memory, and the array predictions (reading the dataset from a file and printing the rows are not modelled)."
  },
  {
   "property": "C73",
   "status": "partial",
   "theorems": [
    "Verif.CText.C73_nnet_program",
    "Verif.CText.C73_program_memory",
    "Verif.CText.C73_program_example",
    "Verif.CText.C73_globals",
    "Verif.CText.C73_nnet_text",
    "Verif.CText.C73_normalised_text_partial",
    "Verif.CText.C73_source_renders",
    "Verif.CText.C73_memory_exists",
    "Verif.CText.C73_constants_exist",
    "Verif.CText.C73_nnet_example",
    "Verif.CText.C73_example"
   ],
   "note": "C73_nnet_program: every .nnet file of a description, from the text of the file to the texts of parameters.c, global_vars.c, inference.h and inference.c, and their execution (C73_nnet_text: inference.c alone). C73_normalised_text: every channels-first network of C55. Partial: exact real arithmetic; for networks other than .nnet files the constants are assumed in memory; the decimal texts that Python prints for the constants are any texts that the C compiler reads back as their values; minima do not exceed maxima; compute_inference for channels-last inputs."
  },
  {
   "property": "C74",
   "status": "proved",
   "theorems": [
    "Verif.CText.C74_transposed_gemm_undeclared",
    "Verif.CText.C74_tt_result_undeclared",
    "Verif.CText.convForm_arrays",
    "Verif.CText.out_not_bound",
    "Verif.CText.C74_example"
   ],
   "note": "The text of the layer, instantiated from the template files, parses as one C statement; the identifiers it names and those that the header of any network and the declarations in the function give are compared. That an undeclared identifier is rejected by a C compiler is not modelled."
  },
  {
   "property": "C75",
   "status": "partial",
   "theorems": [
    "Verif.Layers.C75_max_code_partial",
    "Verif.Layers.C75_max_partial",
    "Verif.Layers.C75_avg_code_partial",
    "Verif.Layers.C75_avg_forward_partial",
    "Verif.Layers.C75_avg_partial",
    "Verif.Layers.C75_avg_versions_agree_iff",
    "Verif.Layers.C75_fails_top_padding",
    "Verif.Layers.C75_versions_differ",
    "Verif.CText.C75_max_text_partial",
    "Verif.CText.C75_avg_text_partial",
    "Verif.CText.C75_activation_undeclared",
    "Verif.CText.C75_example"
   ],
   "note": "Partial: the positive theorems need pad_top = pad_left (the text does not use pad_top; C75_fails_top_padding) and, against Python, the paddings on which the reference pads as the code does. The text is read after erasing its cast to float and adding restrict to its pointer declarations, which change no value; the claim about the activation function is about the tokens of the text itself. float arithmetic is exact."
  },
  {
   "property": "C76",
   "status": "partial",
   "theorems": [
    "Verif.Layers.C76_table_unpadded",
    "Verif.Layers.C76_table_partial",
    "Verif.Layers.C76_transposed_partial",
    "Verif.Layers.C76_table_stride_one",
    "Verif.Layers.C76_entry_partial",
    "Verif.Layers.C76_product_partial",
    "Verif.Layers.C76_table_iff",
    "Verif.Layers.C76_fails_unused",
    "Verif.CText.C76_nn_undeclared",
    "Verif.CText.C76_table_undeclared",
    "Verif.CText.C76_example"
   ],
   "note": "Partial: with padding the positive theorems need every element of the image in some window; C76_fails_unused is an accepted layer without it and a wrong table. C76_table_iff: where a tap falls on the padding, this condition is also necessary. The text of the table is modelled by its tokens, and C76_product_partial is about the sum over the pointed values, not about the text of the gemm template."
  }
 ]
}