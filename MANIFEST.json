{
 "claims": [
  {
   "property": "C01",
   "status": "proved",
   "theorems": [
    "Aitisa.C01_create",
    "Aitisa.C01_create_accessors"
   ],
   "note": "All dtypes, devices, shapes whose products fit in int64 and all allocation-failure patterns."
  },
  {
   "property": "C02",
   "status": "proved",
   "theorems": [
    "Aitisa.C02_reject",
    "Aitisa.C02_adopt",
    "Aitisa.C02_owned",
    "Aitisa.C02_remainder_accepted",
    "Aitisa.C02_zero_size_ub"
   ],
   "note": "Adoption and rejection. Also proved: a length with a remainder is accepted (truncating division), and a dtype of size 0 divides by zero."
  },
  {
   "property": "C03",
   "status": "proved",
   "theorems": [
    "Aitisa.C03_resolve",
    "Aitisa.C03_create_resolve",
    "Aitisa.C03_len_truncated"
   ],
   "note": "The returned status is not part of the model's result because aitisa_resolve has no return statement. The length is the byte length modulo 2^32; C03_len_truncated shows it is wrong from 4 GiB on."
  },
  {
   "property": "C04",
   "status": "proved",
   "theorems": [
    "Aitisa.C04_destroy",
    "Aitisa.C04_create_destroy",
    "Aitisa.C04_destroy_null",
    "Aitisa.C04_destroy_twice",
    "Aitisa.C04_destroy_copy_ub"
   ],
   "note": "Also proved: destroying through a second copy of the handle is a use after free."
  },
  {
   "property": "C05",
   "status": "partial",
   "theorems": [
    "Aitisa.C05_violated",
    "Aitisa.C05_violated_oom",
    "Aitisa.C05_leak_bound_partial",
    "Aitisa.C05_exact_partial",
    "Aitisa.C05_holds_iff_partial"
   ],
   "note": "The claim is false for this code: C05_violated and C05_violated_oom prove it. C05_leak_bound_partial bounds the leak, C05_exact_partial says exactly what is leaked (every granted request), C05_holds_iff_partial says exactly when the claim holds (first request refused)."
  },
  {
   "property": "C06",
   "status": "proved",
   "theorems": [
    "Aitisa.C06_operators",
    "Aitisa.C06_values",
    "Aitisa.C06_cast"
   ],
   "note": "C06_operators: for every operator, all arguments (no well-formedness assumed), every environment and status; C06_values: operands keep their value; C06_cast: conversion. Output parameters and caller arrays are passed by value, so 'memory' is the heap."
  },
  {
   "property": "C07",
   "status": "proved",
   "theorems": [
    "Aitisa.C07_operators",
    "Aitisa.C07_cast"
   ],
   "note": "C07_operators, C07_cast: on success the newly live blocks are exactly the blocks reachable from the returned handle, for all arguments and environments. Leaks on failure are outside this claim (see C05, C48)."
  },
  {
   "property": "C08",
   "status": "proved",
   "theorems": [
    "Aitisa.C08_read_write",
    "Aitisa.C08_write_back",
    "Aitisa.C08_typed",
    "Aitisa.C08_bounds",
    "Aitisa.C08_memory"
   ],
   "note": "Buffers of arbitrary bytes, all ten types."
  },
  {
   "property": "C09",
   "status": "proved",
   "theorems": [
    "Aitisa.C09_set_item",
    "Aitisa.C09_others"
   ],
   "note": ""
  },
  {
   "property": "C10",
   "status": "proved",
   "theorems": [
    "Aitisa.C10_full",
    "Aitisa.C10_unrepresentable",
    "Aitisa.C10_int_counter"
   ],
   "note": "Also proved: unrepresentable value and more than INT_MAX elements are undefined behaviour."
  },
  {
   "property": "C11",
   "status": "proved",
   "theorems": [
    "Aitisa.C11_cast",
    "Aitisa.C11_total",
    "Aitisa.C11_undefined"
   ],
   "note": "Conversions specified relationally (Converts). Undefined float-to-int conversions make the call undefined (C11_undefined)."
  },
  {
   "property": "C12",
   "status": "partial",
   "theorems": [
    "Aitisa.C12_same_type",
    "Aitisa.C12_violated",
    "Aitisa.C12_partial",
    "Aitisa.C12_exact_partial"
   ],
   "note": "The claim is false for this code (C12_violated; C12_same_type for every tensor). C12_partial covers distinct types; C12_exact_partial: a successful call delivers a new tensor if and only if the types differ."
  },
  {
   "property": "C13",
   "status": "proved",
   "theorems": [
    "Aitisa.C13_round_trip"
   ],
   "note": "All pairs of integer types where the range of the first is contained in the second."
  },
  {
   "property": "C14",
   "status": "proved",
   "theorems": [
    "Aitisa.C14_linidx_coords",
    "Aitisa.C14_coords_linidx",
    "Aitisa.C14_row_major",
    "Aitisa.C14_last_coordinate"
   ],
   "note": "All tensors with positive dims, all indices and coordinates, asserts on or off."
  },
  {
   "property": "C15",
   "status": "proved",
   "theorems": [
    "Aitisa.C15_offset",
    "Aitisa.C15_coords"
   ],
   "note": "All well-formed tensors (default layout)."
  },
  {
   "property": "C16",
   "status": "proved",
   "theorems": [
    "Aitisa.C16_stride",
    "Aitisa.C16_all_strides",
    "Aitisa.C16_offset_sum"
   ],
   "note": ""
  },
  {
   "property": "C17",
   "status": "proved",
   "theorems": [
    "Aitisa.C17_broadcast",
    "Aitisa.C17_mismatch",
    "Aitisa.C17_comm",
    "Aitisa.C17_identity",
    "Aitisa.C17_assoc",
    "Aitisa.C17_zero_one"
   ],
   "note": "Also proved: associativity; 0 broadcast against 1 gives 1 (C17_zero_one)."
  },
  {
   "property": "C18",
   "status": "proved",
   "theorems": [
    "Aitisa.C18_reshape",
    "Aitisa.C18_mismatch",
    "Aitisa.C18_twice"
   ],
   "note": ""
  },
  {
   "property": "C19",
   "status": "proved",
   "theorems": [
    "Aitisa.C19_squeeze",
    "Aitisa.C19_same_size",
    "Aitisa.C19_deterministic",
    "Aitisa.C19_all_axes",
    "Aitisa.C19_negative_count",
    "Aitisa.C19_negative_axis"
   ],
   "note": "For every tensor with positive dims and every duplicate-free in-range axis list; negative counts and axes refused without effect."
  },
  {
   "property": "C20",
   "status": "partial",
   "theorems": [
    "Aitisa.C20_memory_safe_partial",
    "Aitisa.C20_axis_too_large",
    "Aitisa.C20_repeated_axis",
    "Aitisa.C20_zero_dim",
    "Aitisa.C20_safe_iff",
    "Aitisa.C20_outcomes",
    "Aitisa.C20_exact_partial"
   ],
   "note": "The claim is false; the three ways it fails are proved (C20_axis_too_large, C20_repeated_axis, C20_zero_dim). C20_exact_partial says exactly which axis lists are safe, for every tensor and every list, and C20_outcomes gives every outcome, both for an allocator that grants what is below 2^63 bytes and refuses the rest."
  },
  {
   "property": "C21",
   "status": "proved",
   "theorems": [
    "Aitisa.C21_slice",
    "Aitisa.C21_success",
    "Aitisa.C21_extent",
    "Aitisa.C21_params",
    "Aitisa.C21_too_large",
    "Aitisa.C21_rank0"
   ],
   "note": "Every request, rank and allocation pattern. Limits proved: C21_too_large, C21_rank0. Allocation failure may dereference null (the out_dims buffer is unchecked)."
  },
  {
   "property": "C22",
   "status": "partial",
   "theorems": [
    "Aitisa.C22_refuse_partial",
    "Aitisa.C22_overflow",
    "Aitisa.C22_exact_partial"
   ],
   "note": "The claim is false when begin+size exceeds INT_MAX (C22_overflow); proved for all other parameter arrays. C22_exact_partial says exactly for which arrays of ints the request is refused and for which the check overflows."
  },
  {
   "property": "C23",
   "status": "proved",
   "theorems": [
    "Aitisa.C23_ceil",
    "Aitisa.C23_floor",
    "Aitisa.C23_exists",
    "Aitisa.C23_floor_plus_one",
    "Aitisa.C23_plus_one_exists"
   ],
   "note": "Division, ceiling, floor and the rounding of the '+ 1', for whatever nearest binary64 numbers the operations return."
  },
  {
   "property": "C24",
   "status": "proved",
   "theorems": [
    "Aitisa.C24_copy",
    "Aitisa.C24_independent"
   ],
   "note": ""
  },
  {
   "property": "C25",
   "status": "partial",
   "theorems": [
    "Aitisa.C25_partial",
    "Aitisa.C25_rank0",
    "Aitisa.C25_refused",
    "Aitisa.C25_too_large",
    "Aitisa.C25_truncated",
    "Aitisa.C25_outcomes",
    "Aitisa.C25_exact_partial"
   ],
   "note": "The claim is false; proved exactly: C25_rank0, C25_refused, C25_too_large, C25_truncated; C25_outcomes gives every outcome and C25_exact_partial exactly the tensors for which a copy is delivered."
  },
  {
   "property": "C26",
   "status": "proved",
   "theorems": [
    "Aitisa.C26_binary",
    "Aitisa.C26_int_counter"
   ],
   "note": "All ten dtypes, four operators, aliased arguments allowed. Up to INT_MAX elements (limit shown to be real). If malloc fails a null pointer is dereferenced (see C48)."
  },
  {
   "property": "C27",
   "status": "proved",
   "theorems": [
    "Aitisa.C27_device",
    "Aitisa.C27_type",
    "Aitisa.C27_dims"
   ],
   "note": "All three refusals, in order; memory and *output untouched."
  },
  {
   "property": "C28",
   "status": "proved",
   "theorems": [
    "Aitisa.C28_defined_iff",
    "Aitisa.C28_undefined",
    "Aitisa.C28_defined"
   ],
   "note": "Element level characterisation, and its effect on the whole call in both directions."
  },
  {
   "property": "C29",
   "status": "proved",
   "theorems": [
    "Aitisa.C29_commutes",
    "Aitisa.C29_equal_results"
   ],
   "note": "Integer types unconditionally; float types under commutativity of the hardware operation."
  },
  {
   "property": "C30",
   "status": "proved",
   "theorems": [
    "Aitisa.C30_sqrt",
    "Aitisa.C30_negative"
   ],
   "note": "On STATUS_MATH_ERROR *output is nevertheless set to a new tensor (part of the theorem)."
  },
  {
   "property": "C31",
   "status": "proved",
   "theorems": [
    "Aitisa.C31_vector_vector",
    "Aitisa.C31_matrix_vector",
    "Aitisa.C31_matrix_matrix",
    "Aitisa.C31_vector_matrix",
    "Aitisa.C31_tensor_vector",
    "Aitisa.C31_vector_tensor",
    "Aitisa.C31_tensor_tensor",
    "Aitisa.C31_int_limit"
   ],
   "note": "One theorem per rank combination; each bounds dims and the number of output elements by INT_MAX. C31_int_limit shows that this limit is the code's: an output with more than INT_MAX elements, or sums of more than INT_MAX terms, overflow the int counters for every shape of the table. In the batched cases a failed allocation of a temporary is dereferenced; without allocation failure the tensor is delivered. Float elements: multiplication and addition as two rounded operations."
  },
  {
   "property": "C32",
   "status": "proved",
   "theorems": [
    "Aitisa.C32_device",
    "Aitisa.C32_rank0",
    "Aitisa.C32_inner_dims",
    "Aitisa.C32_batch_dims"
   ],
   "note": "All four rejections; with incompatible batch dims the array of output dims is leaked, and a failed allocation of it is dereferenced."
  },
  {
   "property": "C33",
   "status": "partial",
   "theorems": [
    "Aitisa.C33_safe_partial",
    "Aitisa.C33_mixed_dtypes_violated",
    "Aitisa.C33_smaller_dtype_violated",
    "Aitisa.C33_empty_operand_violated",
    "Aitisa.C33_empty_batch_violated"
   ],
   "note": "All documented shapes, all sizes, all pairs of dtypes: if an element of the second operand is at least as large as one of the first, the product is safe unless the output has elements that are sums of terms while an operand has none (C33_safe_partial), and in exactly those cases the empty operand is read outside its data (C33_empty_operand_violated). A second operand of smaller elements is read outside its data whenever the output has elements that are sums of terms, unless a sum overflows first (C33_smaller_dtype_violated). Missing: outputs without elements whose other dims multiply to more than INT_MAX; unknown dtype codes (C49)."
  },
  {
   "property": "C34",
   "status": "partial",
   "theorems": [
    "Aitisa.C34_vector_vector",
    "Aitisa.C34_matrix_matrix",
    "Aitisa.C34_scalar_left_partial",
    "Aitisa.C34_scalar_right_partial",
    "Aitisa.C34_tensor_vector_partial",
    "Aitisa.C34_tensor_tensor_partial",
    "Aitisa.C34_otherwise",
    "Aitisa.C34_unsupported",
    "Aitisa.C34_vector_mismatch",
    "Aitisa.C34_tensor_vector_mismatch",
    "Aitisa.C34_tensor_tensor_mismatch",
    "Aitisa.C34_scalar_rounded_violated",
    "Aitisa.C34_empty_inner_violated",
    "Aitisa.C34_empty_inner_division_violated"
   ],
   "note": "vector-vector, matrix-matrix (same run as matmul), the error cases and the contraction of tensors are proved for all shapes and data with a nonempty inner dim and int-sized offsets; the scalar case is proved for the scalar after its conversion to double. Violated and proved so: an inner dim 0 gives STATUS_INVALID_ARGUMENT with the output set (tensor x vector) or a division by zero (tensor x tensor); a scalar not representable in double is rounded"
  },
  {
   "property": "C35",
   "status": "proved",
   "theorems": [
    "Aitisa.C35_relu",
    "Aitisa.C35_idempotent"
   ],
   "note": ""
  },
  {
   "property": "C36",
   "status": "proved",
   "theorems": [
    "Aitisa.C36_sigmoid",
    "Aitisa.C36_tanh",
    "Aitisa.C36_sigmoid_refuses",
    "Aitisa.C36_tanh_refuses"
   ],
   "note": "On STATUS_NOT_SUPPORTED *output is nevertheless set to a new uninitialised tensor (part of the theorem)."
  },
  {
   "property": "C37",
   "status": "proved",
   "theorems": [
    "Aitisa.C37_axis",
    "Aitisa.C37_all",
    "Aitisa.C37_refused",
    "Aitisa.C37_line"
   ],
   "note": "Relational: es are the converted exponentials, ys the converted quotients by the line sums. Element count below 2^62 for axis >= 0 (the last increment of linear_idx could overflow int64 otherwise). On allocation failure *output is overwritten (Tries)."
  },
  {
   "property": "C38",
   "status": "proved",
   "theorems": [
    "Aitisa.C38_avg",
    "Aitisa.C38_max",
    "Aitisa.C38_float",
    "Aitisa.C38_window",
    "Aitisa.C38_count",
    "Aitisa.C38_rank",
    "Aitisa.C38_too_large",
    "Aitisa.C38_other_mode"
   ],
   "note": "Both modes, ranks 3 to 5, all window parameters within int, up to INT_MAX windows per channel. Max is the scan from 0.0 (see C39). Float types: the result exists for all data. Also proved: refusals, the leak of the too-large refusal (C38_too_large) and that an unknown mode returns uninitialised elements (C38_other_mode)."
  },
  {
   "property": "C39",
   "status": "partial",
   "theorems": [
    "Aitisa.C39_exact_partial",
    "Aitisa.C39_large_violated",
    "Aitisa.C39_nonpositive_violated",
    "Aitisa.C39_violated",
    "Aitisa.C39_window_partial",
    "Aitisa.C39_positive_partial"
   ],
   "note": "The claim is false: C39_nonpositive_violated for every window without an element above 0.0, C39_violated for a whole call, C39_large_violated for integers beyond 2^53. C39_exact_partial says for all element types and data on IEEE machines what is computed (the greatest of 0 and the numbers of the window; NaNs are skipped) and that it is the maximum of the window if and only if the window has no NaN and an element that is not negative (integers below 2^53). C39_positive_partial needs no IEEE arithmetic, only an order on the doubles involved."
  },
  {
   "property": "C40",
   "status": "proved",
   "theorems": [
    "Aitisa.C40_conv",
    "Aitisa.C40_unique",
    "Aitisa.C40_overlarge",
    "Aitisa.C40_no_channels",
    "Aitisa.C40_rank1_unchecked",
    "Aitisa.C40_groups_violated"
   ],
   "note": "All ranks from 2, all window parameters that fit, all data; at least one channel. The status is left open (C41). groups is ignored by the code: C40_groups_violated shows a documented grouped call failing. Also proved: C40_overlarge, C40_no_channels, C40_rank1_unchecked."
  },
  {
   "property": "C41",
   "status": "partial",
   "theorems": [
    "Aitisa.C41_violated",
    "Aitisa.C41_conv_violated"
   ],
   "note": "The claim is false for every call on float tensors that completes (C41_violated, C41_conv_violated). What does hold - the output is produced and the status is whatever is in the register - is part of C40."
  },
  {
   "property": "C42",
   "status": "proved",
   "theorems": [
    "Aitisa.C42_conv2d",
    "Aitisa.C42_conv3d",
    "Aitisa.C42_same",
    "Aitisa.C42_dtype"
   ],
   "note": "For every rank, dtype code and argument values; the filter handle may be anything."
  },
  {
   "property": "C43",
   "status": "proved",
   "theorems": [
    "Aitisa.C43_dropout",
    "Aitisa.C43_keep_or_zero",
    "Aitisa.C43_none",
    "Aitisa.C43_all",
    "Aitisa.C43_refused",
    "Aitisa.C43_nan"
   ],
   "note": "Scope as for duplicate (C24). C43_nan: a NaN rate is undefined behaviour. If the allocator fails dropout may dereference null (inherited from slice)."
  },
  {
   "property": "C44",
   "status": "partial",
   "theorems": [
    "Aitisa.C44_batchNorm_partial",
    "Aitisa.C44_unique",
    "Aitisa.C44_empty_violated"
   ],
   "note": "Proved for all ranks 2 to 5, both axes, all element types and data, for inputs without empty dims other than the number of samples and below 4 GiB per sample and channel (the code's uint32 offsets wrap beyond). Violated for empty inputs: C44_empty_violated."
  },
  {
   "property": "C45",
   "status": "proved",
   "theorems": [
    "Aitisa.C45_refused"
   ],
   "note": "for every combination of valid tensors the status is that of the first violated requirement of an independent list, and memory and *output are untouched; that calls meeting all requirements are accepted is part of C44"
  },
  {
   "property": "C46",
   "status": "partial",
   "theorems": [
    "Aitisa.C46_histories_partial",
    "Aitisa.C46_plenty",
    "Aitisa.C46_start_partial",
    "Aitisa.C46_crash_violated"
   ],
   "note": "Proved for histories of any length, chosen adaptively, in which every call meets the preconditions stated in Spec/Meets.lean, for every allocator: every call gives the stated result, or reports STATUS_ALLOC_FAILED after a refused request, or is a null dereference by an operator that does not check its allocations, after a refused request. With an allocator that cannot fail the full claim holds (C46_plenty). Missing: the null dereferences, for which the claim is false (C46_crash_violated)."
  },
  {
   "property": "C47",
   "status": "proved",
   "theorems": [
    "Aitisa.C47_histories",
    "Aitisa.C47_empty",
    "Aitisa.C47_distinct"
   ],
   "note": "Histories of any length with arbitrary arguments; the program keeps each handle returned with success."
  },
  {
   "property": "C48",
   "status": "partial",
   "theorems": [
    "Aitisa.C48_binary_crash",
    "Aitisa.C48_slice_crash",
    "Aitisa.C48_duplicate_crash",
    "Aitisa.C48_dropout_crash",
    "Aitisa.C48_pooling_crash",
    "Aitisa.C48_conv2d_crash",
    "Aitisa.C48_conv3d_crash",
    "Aitisa.C48_matmul_crash",
    "Aitisa.C48_dot_left_crash",
    "Aitisa.C48_dot_right_crash",
    "Aitisa.C48_batchNorm_crash",
    "Aitisa.C48_batchNorm_channels_crash",
    "Aitisa.C48_reported_partial",
    "Aitisa.C48_cast_reported",
    "Aitisa.C48_create",
    "Aitisa.C48_full",
    "Aitisa.C48_reshape",
    "Aitisa.C48_cast",
    "Aitisa.C48_squeeze",
    "Aitisa.C48_sqrt",
    "Aitisa.C48_relu",
    "Aitisa.C48_sigmoid",
    "Aitisa.C48_tanh",
    "Aitisa.C48_softmax_partial",
    "Aitisa.C48_softmax_output",
    "Aitisa.C48_violated",
    "Aitisa.C48_only_then",
    "Aitisa.C48_only_then_cast"
   ],
   "note": "Proved for the operators that check their allocations, on all arguments (C48_reported_partial, C48_cast_reported), including that they do not crash. 'Only then' is proved for every operator and all arguments (C48_only_then). The rest is false for the careless operators: C48_violated has a crashing call for each, and the binary operators, slice, duplicate, dropout, pooling, the convolutions, products with a tensor of rank 3 or more, dot with a scalar and batch normalisation crash on all valid arguments if a certain request is refused (C48_binary_crash, C48_slice_crash, C48_duplicate_crash, C48_dropout_crash, C48_pooling_crash, C48_conv2d_crash, C48_conv3d_crash, C48_matmul_crash, C48_dot_left_crash, C48_dot_right_crash, C48_batchNorm_crash, C48_batchNorm_channels_crash). That the careless ones otherwise report is in their functional theorems (Attempts, AttemptsMalloc, DeliversMalloc)."
  },
  {
   "property": "C49",
   "status": "partial",
   "theorems": [
    "Aitisa.C49_relu",
    "Aitisa.C49_sigmoid",
    "Aitisa.C49_tanh",
    "Aitisa.C49_sqrt",
    "Aitisa.C49_cast",
    "Aitisa.C49_slice",
    "Aitisa.C49_duplicate",
    "Aitisa.C49_dropout",
    "Aitisa.C49_softmax",
    "Aitisa.C49_pooling",
    "Aitisa.C49_conv",
    "Aitisa.C49_dot_scalar",
    "Aitisa.C49_dot_tensor_vector",
    "Aitisa.C49_dot_tensors",
    "Aitisa.C49_full_violated",
    "Aitisa.C49_binary_violated",
    "Aitisa.C49_matmul_violated",
    "Aitisa.C49_matmul_batched_violated",
    "Aitisa.C49_dot_violated",
    "Aitisa.C49_dot_matrices_violated",
    "Aitisa.C49_batch_norm_violated"
   ],
   "note": "relu, sigmoid, tanh, sqrt, cast, slice, duplicate, dropout, softmax, pooling, conv and the dot cases with a scalar, tensor-vector or two tensors of rank at least 3 return STATUS_NOT_SUPPORTED. Violated (undefined behaviour: the code indexes a table of ten kernels) by full, the binary operators, matmul, the other dot cases and batch normalisation."
  },
  {
   "property": "C50",
   "status": "proved",
   "theorems": [
    "Aitisa.C50_unary",
    "Aitisa.C50_binary",
    "Aitisa.C50_result",
    "Aitisa.C50_setResult",
    "Aitisa.C50_selfAssign_violated",
    "Aitisa.C50_moved_violated",
    "Aitisa.C50_assign_violated",
    "Aitisa.C50_setData_violated",
    "Aitisa.C50_result_violated",
    "Aitisa.C50_conv_violated",
    "Aitisa.C50_convAssign_violated",
    "Aitisa.C50_sample_violated"
   ],
   "note": "Every legal history of Unary_Input, Binary_Input and Result objects, any environment; _violated theorems show that each excluded step (self-assignment of a sole owner, use of a moved-from object, second set_data) and Conv_Input / get_binary_sample go wrong."
  },
  {
   "property": "C51",
   "status": "proved",
   "theorems": [
    "Aitisa.C51_operators",
    "Aitisa.C51_actions",
    "Aitisa.C51_programs",
    "Aitisa.C51_untouched"
   ],
   "note": "All operators, all arguments, all memories; also element writes, conversion, destruction and whole programs. Only completed calls are compared (a wild read has no defined result to compare)."
  },
  {
   "property": "C52",
   "status": "proved",
   "theorems": [
    "Aitisa.C52_operators",
    "Aitisa.C52_programs",
    "Aitisa.C52_random",
    "Aitisa.C52_assertions",
    "Aitisa.C52_unlimited",
    "Aitisa.C52_enough"
   ],
   "note": "All operators, all arguments. Only completed calls are compared: a call that aborts on an assertion may do anything in a build without assertions."
  },
  {
   "property": "C53",
   "status": "proved",
   "theorems": [
    "Aitisa.C53_statuses",
    "Aitisa.C53_cast",
    "Aitisa.C53_never",
    "Aitisa.C53_attained",
    "Aitisa.C53_cast_attained"
   ],
   "note": "C53_statuses: completeness for all arguments, memories and allocators (memory well-formed); C53_attained: each entry attained; C53_never; conversion: C53_cast, C53_cast_attained. What the register holds is a parameter of the model of the convolutions (see C40)."
  },
  {
   "property": "C54",
   "status": "proved",
   "theorems": [
    "Aitisa.C54_assign",
    "Aitisa.C54_other_type",
    "Aitisa.C54_dtype_table",
    "Aitisa.C54_device_table",
    "Aitisa.C54_one_tenth",
    "Aitisa.C54_fill",
    "Aitisa.C54_fill2",
    "Aitisa.C54_tensor",
    "Aitisa.C54_large",
    "Aitisa.C54_repo_inputs"
   ],
   "note": "Filling (both ways, all types), unary and binary set-up, and the whole fixture up to the created tensor; C54_large shows what happens at 4 GiB and above; C54_repo_inputs checks the inputs of the repository against the conditions. Random numbers are arbitrary numbers of the announced range; uniform_int_distribution of an 8-bit type, which the C++ standard leaves undefined, is treated like the others."
  },
  {
   "property": "C55",
   "status": "proved",
   "theorems": [
    "Aitisa.C55_compare",
    "Aitisa.C55_same"
   ],
   "note": "For every closeness test (exact equality, |x-y| < 1e-3, ASSERT_FLOAT_EQ): it is a parameter. The user's result is a tensor in memory as the library would resolve it."
  },
  {
   "property": "C56",
   "status": "proved",
   "theorems": [
    "Aitisa.C56_binary",
    "Aitisa.C56_cast",
    "Aitisa.C56_round_trip",
    "Aitisa.C56_full",
    "Aitisa.C56_relu",
    "Aitisa.C56_vector_vector",
    "Aitisa.C56_matrix_vector",
    "Aitisa.C56_vector_matrix",
    "Aitisa.C56_matrix_matrix",
    "Aitisa.C56_tensor_vector",
    "Aitisa.C56_vector_tensor",
    "Aitisa.C56_tensor_tensor",
    "Aitisa.C56_dot_vectors",
    "Aitisa.C56_dot_tensor_vector",
    "Aitisa.C56_dot_tensors",
    "Aitisa.C56_dot_scalar_left",
    "Aitisa.C56_dot_scalar_right",
    "Aitisa.C56_conv",
    "Aitisa.C56_max_pooling",
    "Aitisa.C56_avg_pooling",
    "Aitisa.C56_range_is_sharp"
   ],
   "note": "For IEEE arithmetic with or without fused multiply-add (Machine). For 64-bit integer types the pooling claims need the elements below 2^53, since the code goes through double. Addition and the like of integers need the result in range; outside, C18 says what happens."
  },
  {
   "property": "C57",
   "status": "proved",
   "theorems": [
    "Aitisa.C57_relu",
    "Aitisa.C57_relu_no_nan",
    "Aitisa.C57_commutes",
    "Aitisa.C57_dot_scalar",
    "Aitisa.C57_window",
    "Aitisa.C57_window_defined",
    "Aitisa.C57_max_pooling"
   ],
   "note": "For IEEE arithmetic with or without fused multiply-add (Machine), all bit patterns. The canonical NaN is used as result of invalid operations, so commutation holds bit by bit in the model; on hardware that propagates NaN payloads the payload of a NaN result may depend on the order."
  },
  {
   "property": "C58",
   "status": "proved",
   "theorems": [
    "Aitisa.C58_floor",
    "Aitisa.C58_square",
    "Aitisa.C58_int64_violated"
   ],
   "note": "For IEEE arithmetic with or without fused multiply-add (Machine); the bound 2^52+2^27 is sharp (C58_int64_violated)."
  },
  {
   "property": "C59",
   "status": "proved",
   "theorems": [
    "Aitisa.C59_exp",
    "Aitisa.C59_range",
    "Aitisa.C59_order"
   ],
   "note": "For IEEE arithmetic with or without fused multiply-add (Machine) with any exponential function satisfying ExpOK (and ExpMono for the order); the exponential function of ieee is one (C59_exp)."
  },
  {
   "property": "C60",
   "status": "partial",
   "theorems": [
    "Aitisa.C60_tanh_partial",
    "Aitisa.C60_tanh_odd",
    "Aitisa.C60_tanh_violated",
    "Aitisa.C60_softmax_partial",
    "Aitisa.C60_softmax_all_partial",
    "Aitisa.C60_softmax_violated"
   ],
   "note": "Violated: tanh and softmax of 1000 are NaN because exp overflows (C60_tanh_violated, C60_softmax_violated). The partial theorems give the exact condition for a NaN result and show that every other result is in the range; C60_tanh_odd and the order of the shares hold without further restrictions."
  },
  {
   "property": "C61",
   "status": "proved",
   "theorems": [
    "Aitisa.C61_each",
    "Aitisa.C61_each_total",
    "Aitisa.C61_binary",
    "Aitisa.C61_binary_total",
    "Aitisa.C61_slice_of_slice",
    "Aitisa.C61_slice_of_slice_total",
    "Aitisa.C61_composed",
    "Aitisa.C61_copy",
    "Aitisa.C61_copy_move"
   ],
   "note": "For broadcast operands of different shapes the exchange is not claimed. Tensors must meet the conditions under which the single operators are proved (C15, C17, C19, C21, C24, C28, C36)."
  },
  {
   "property": "C62",
   "status": "proved",
   "theorems": [
    "Aitisa.C62_avg_pooling",
    "Aitisa.C62_max_pooling",
    "Aitisa.C62_conv",
    "Aitisa.C62_conv_total",
    "Aitisa.C62_matmul_rows",
    "Aitisa.C62_softmax",
    "Aitisa.C62_batch_norm"
   ],
   "note": "Convolution has a meaningless status (C41), so its theorem allows any status. Values for which an operator is undefined (overflow of int, division by zero) are excluded by hypothesis."
  },
  {
   "property": "C63",
   "status": "proved",
   "theorems": [
    "Aitisa.C63_polynomials",
    "Aitisa.C63_always_defined",
    "Aitisa.C63_mul_div"
   ],
   "note": "A calculation is a tree of calls of add, sub, mul, div and full. C63_polynomials: if two trees are the same polynomial (SamePoly) and defined, they give equal tensors, for every integer type. C63_always_defined gives the types for which they are always defined. C63_mul_div for division."
  },
  {
   "property": "C64",
   "status": "proved",
   "theorems": [
    "Aitisa.C64_neutral",
    "Aitisa.C64_neutral_left",
    "Aitisa.C64_sub_self",
    "Aitisa.C64_div_self",
    "Aitisa.C64_double",
    "Aitisa.C64_halve",
    "Aitisa.C64_commutes"
   ],
   "note": "For IEEE arithmetic with or without fused multiply-add (Machine), the softfloat of Spec/Ieee.lean; C64_commutes for every floating-point unit whose sums and products commute. The hypotheses (no NaN, no minus zero, finite, not zero) are stated for the element at each position; an example shows that minus zero plus zero is plus zero."
  },
  {
   "property": "C65",
   "status": "proved",
   "theorems": [
    "Aitisa.C65_same_numbers",
    "Aitisa.C65_always_defined",
    "Aitisa.C65_associative",
    "Aitisa.C65_distributes",
    "Aitisa.C65_distributes_right"
   ],
   "note": "For all trees of matmul, dot, add, sub and mul on matrices of an integer type; the three-matrix laws are instances of C65_same_numbers. Which sums and products C defines is said by the hypothesis Defined, discharged for five types by C65_always_defined. Products of vectors and of batches are not part of the trees."
  },
  {
   "property": "C66",
   "status": "proved",
   "theorems": [
    "Aitisa.C66_columns",
    "Aitisa.C66_rows",
    "Aitisa.C66_identity_right",
    "Aitisa.C66_identity_left"
   ],
   "note": "On IEEE arithmetic (Spec/Ieee.lean) with or without fused multiply-add, for all ten types. The hypotheses exclude infinities and NaN (0 times them is NaN) and minus zeros (which become plus zeros); an example shows that both are needed."
  },
  {
   "property": "C67",
   "status": "proved",
   "theorems": [
    "Aitisa.C67_unary_new",
    "Aitisa.C67_unary_ptr",
    "Aitisa.C67_unary_vec",
    "Aitisa.C67_binary_new",
    "Aitisa.C67_binary_ptr",
    "Aitisa.C67_binary_vec",
    "Aitisa.C67_conv_new",
    "Aitisa.C67_conv_ptr",
    "Aitisa.C67_conv_vec",
    "Aitisa.C67_result_new",
    "Aitisa.C67_copy",
    "Aitisa.C67_binary_copy",
    "Aitisa.C67_conv_copy",
    "Aitisa.C67_result_copy",
    "Aitisa.C67_move",
    "Aitisa.C67_binary_move",
    "Aitisa.C67_result_move",
    "Aitisa.C67_assign",
    "Aitisa.C67_binary_assign",
    "Aitisa.C67_setData",
    "Aitisa.C67_binary_setData"
   ],
   "note": "Constructors, copies, moves, assignments and set_data of the three input classes and Result; the assignment of Conv_Input is undefined behaviour (C50). The conversion of the rank to int in the constructor of Conv_Input is not modelled."
  },
  {
   "property": "C68",
   "status": "proved",
   "theorems": [
    "Aitisa.C68_slice",
    "Aitisa.C68_reshape",
    "Aitisa.C68_squeeze",
    "Aitisa.C68_dropout",
    "Aitisa.C68_rate",
    "Aitisa.C68_avg",
    "Aitisa.C68_max",
    "Aitisa.C68_conv_pick",
    "Aitisa.C68_conv_same",
    "Aitisa.C68_batchNorm",
    "Aitisa.C68_softmax"
   ],
   "note": "On IEEE arithmetic (Spec/Ieee.lean) with or without fused multiply-add where elements are computed. As for C40, a convolution ends without a return statement; the result is stated for every value the missing return may have (C41). Batch normalisation and pooling are subject to the size bounds of C44 and C38."
  },
  {
   "property": "C69",
   "status": "proved",
   "theorems": [
    "Aitisa.C69_sequences",
    "Aitisa.C69_integers",
    "Aitisa.C69_narrow_back",
    "Aitisa.C69_whole",
    "Aitisa.C69_through_double",
    "Aitisa.C69_double_back"
   ],
   "note": "Two sequences of casts with the same end agree wherever the element conversions agree (C69_sequences); integer sequences through types at least as large as the last equal one cast, with wrap-around (C69_integers); exact condition for narrowing and back (C69_narrow_back); whole numbers (C69_whole); through double (C69_through_double, C69_double_back)."
  },
  {
   "property": "C70",
   "status": "proved",
   "theorems": [
    "Aitisa.C70_operators",
    "Aitisa.C70_cast",
    "Aitisa.C70_installed",
    "Aitisa.C70_programs",
    "Aitisa.C70_origins",
    "Aitisa.C70_returned",
    "Aitisa.C70_destroy",
    "Aitisa.C70_destroy_elsewhere"
   ],
   "note": "Holds for all calls that complete; a call that fails or is undefined with one allocator is not compared. The two functions of an allocator are exchanged together. Building blocks: [[Mixed.run]], [[Mixed.finish]], [[Local.under]]"
  },
  {
   "property": "C71",
   "status": "proved",
   "theorems": [
    "Aitisa.C71_operators",
    "Aitisa.C71_cast",
    "Aitisa.C71_programs",
    "Aitisa.C71_frozen",
    "Aitisa.C71_set_item",
    "Aitisa.C71_destroy"
   ],
   "note": "For every operator (Call), for conversion and for programs, as an equivalence between the run in memory with read-only blocks and the run in writable memory; the two theorems about set_item and destroy show that the model does notice writes."
  },
  {
   "property": "C72",
   "status": "proved",
   "theorems": [
    "Aitisa.C72_softmax",
    "Aitisa.C72_batch_norm",
    "Aitisa.C72_avg_pooling",
    "Aitisa.C72_max_pooling",
    "Aitisa.C72_matmul_matrix",
    "Aitisa.C72_matmul_vector"
   ],
   "note": "Softmax, batch normalisation, pooling (average and maximum), matmul of a stack of matrices with a matrix or a vector; any floating-point behaviour."
  },
  {
   "property": "C73",
   "status": "proved",
   "theorems": [
    "Aitisa.C73_avg_pooling",
    "Aitisa.C73_max_pooling",
    "Aitisa.C73_conv",
    "Aitisa.C73_swap",
    "Aitisa.C73_conv_vector",
    "Aitisa.C73_conv_dense",
    "Aitisa.C73_conv_points",
    "Aitisa.C73_dot_vectors",
    "Aitisa.C73_dot_matrices",
    "Aitisa.C73_dot_vector",
    "Aitisa.C73_softmax",
    "Aitisa.C73_zero"
   ],
   "note": "Unit axes for pooling and convolution; convolutions that are matrix products; dot against matmul; softmax of vectors. C73_swap discharges the hypothesis on multiplication, with and without fused multiply-add."
  },
  {
   "property": "C74",
   "status": "proved",
   "theorems": [
    "Aitisa.C74_coords_checked",
    "Aitisa.C74_position_checked",
    "Aitisa.C74_coords_unchecked",
    "Aitisa.C74_position_unchecked",
    "Aitisa.C74_negative_unchecked",
    "Aitisa.C74_empty_unchecked",
    "Aitisa.C74_stride"
   ],
   "note": "All five index functions, with and without assertions."
  },
  {
   "property": "C75",
   "status": "proved",
   "theorems": [
    "Aitisa.C75_binary",
    "Aitisa.C75_cast",
    "Aitisa.C75_sqrt",
    "Aitisa.C75_error",
    "Aitisa.C75_unique"
   ],
   "note": "On IEEE arithmetic (Machine) the elementwise operators, casts to float/double and sqrt deliver the exact result correctly rounded (C75_binary, C75_cast, C75_sqrt, the last also through double); C75_error bounds the error and C75_unique shows the specification determines the number. Only for finite operands; what NaN and infinities give is C57 and the definition of ieee."
  },
  {
   "property": "C76",
   "status": "proved",
   "theorems": [
    "Aitisa.C76_vector_vector",
    "Aitisa.C76_matrix_vector",
    "Aitisa.C76_vector_matrix",
    "Aitisa.C76_matrix_matrix",
    "Aitisa.C76_tensor_vector",
    "Aitisa.C76_vector_tensor",
    "Aitisa.C76_tensor_tensor",
    "Aitisa.C76_dot_vectors",
    "Aitisa.C76_dot_tensor_vector",
    "Aitisa.C76_dot_tensors",
    "Aitisa.C76_conv",
    "Aitisa.C76_simple",
    "Aitisa.C76_positive"
   ],
   "note": "On IEEE arithmetic, with or without fused multiply-add (even mixed), every float or double element of matmul (seven shape combinations), dot and conv is within the stated bound of the exact sum of products, and is a number below the end of the range. C76_simple gives the bound in simpler terms, C76_positive that it is relative if no product is negative. dot of two matrices is matmul (C34_matrix_matrix)."
  },
  {
   "property": "C77",
   "status": "proved",
   "theorems": [
    "Aitisa.C77_avg_pooling",
    "Aitisa.C77_simple"
   ],
   "note": "On IEEE arithmetic (Machine), for float and double tensors of finite numbers. C77_simple gives the bound in simpler terms."
  },
  {
   "property": "C78",
   "status": "proved",
   "theorems": [
    "Aitisa.C78_relu",
    "Aitisa.C78_cast",
    "Aitisa.C78_sqrt",
    "Aitisa.C78_sigmoid",
    "Aitisa.C78_binary",
    "Aitisa.C78_vector_vector",
    "Aitisa.C78_matrix_vector",
    "Aitisa.C78_vector_matrix",
    "Aitisa.C78_matrix_matrix",
    "Aitisa.C78_tensor_vector",
    "Aitisa.C78_vector_tensor",
    "Aitisa.C78_tensor_tensor",
    "Aitisa.C78_dot_vectors",
    "Aitisa.C78_dot_tensor_vector",
    "Aitisa.C78_dot_tensors",
    "Aitisa.C78_conv",
    "Aitisa.C78_max_pooling",
    "Aitisa.C78_avg_pooling",
    "Aitisa.C78_mixed"
   ],
   "note": "On IEEE arithmetic; sums of products on a machine that always or never fuses multiply-add (Uniform), and C78_mixed shows that this is needed. dot of two matrices is matmul (C34_matrix_matrix)."
  },
  {
   "property": "C79",
   "status": "proved",
   "theorems": [
    "Aitisa.C79_near",
    "Aitisa.C79_mean",
    "Aitisa.C79_order",
    "Aitisa.C79_denominator",
    "Aitisa.C79_simple"
   ],
   "note": "On IEEE arithmetic, within the size limits of C44 (BnSmall, no empty dims). d is determined by Denominator (correct rounding determines each step), C79_denominator bounds its square."
  },
  {
   "property": "C80",
   "status": "proved",
   "theorems": [
    "Aitisa.C80_softmax",
    "Aitisa.C80_softmax_all",
    "Aitisa.C80_sigmoid",
    "Aitisa.C80_tanh",
    "Aitisa.C80_simple"
   ],
   "note": "On IEEE arithmetic (Machine), relative to the exponentials that the machine computes. Lines whose exponentials are infinite or all 0 are the subject of C60."
  },
  {
   "property": "C81",
   "status": "proved",
   "theorems": [
    "Aitisa.C81_relu_before",
    "Aitisa.C81_relu_after",
    "Aitisa.C81_cast",
    "Aitisa.C81_merge",
    "Aitisa.C81_sqrt"
   ],
   "note": "relu before and after (C81_relu_before, C81_relu_after), conversion to double (C81_cast), merging (C81_merge), square roots (C81_sqrt). Machines with IEEE arithmetic, fused or not."
  },
  {
   "property": "C82",
   "status": "proved",
   "theorems": [
    "Aitisa.C82_max_pooling",
    "Aitisa.C82_avg_pooling",
    "Aitisa.C82_conv"
   ],
   "note": "C82_max_pooling, C82_avg_pooling, C82_conv (finite filters; exact without fused multiply-adds, up to the sign of a zero with them)."
  },
  {
   "property": "C83",
   "status": "proved",
   "theorems": [
    "Aitisa.C83_conv"
   ],
   "note": "C83_conv: same elements to the last bit without padding, or without fused multiply-adds and with finite filters; same numbers otherwise (finite filters)."
  },
  {
   "property": "C84",
   "status": "proved",
   "theorems": [
    "Aitisa.C84_max_pooling",
    "Aitisa.C84_avg_pooling",
    "Aitisa.C84_conv",
    "Aitisa.C84_matmul"
   ],
   "note": "C84_max_pooling, C84_avg_pooling, C84_conv, C84_matmul (matrices); no assumption on the arithmetic."
  },
  {
   "property": "C85",
   "status": "proved",
   "theorems": [
    "Aitisa.C85_cast",
    "Aitisa.C85_tanh",
    "Aitisa.C85_binary",
    "Aitisa.C85_from_zero",
    "Aitisa.C85_minus_one",
    "Aitisa.C85_vector_vector",
    "Aitisa.C85_matrix_vector",
    "Aitisa.C85_vector_matrix",
    "Aitisa.C85_matrix_matrix",
    "Aitisa.C85_tensor_vector",
    "Aitisa.C85_vector_tensor",
    "Aitisa.C85_tensor_tensor",
    "Aitisa.C85_dot_vectors",
    "Aitisa.C85_dot_tensor_vector",
    "Aitisa.C85_dot_tensors",
    "Aitisa.C85_conv",
    "Aitisa.C85_avg_pooling"
   ],
   "note": "For float and double. The partial claims about dot (C34) bound the shapes for dot; sums of products need a machine that fuses always or never (as in C78)."
  },
  {
   "property": "C86",
   "status": "proved",
   "theorems": [
    "Aitisa.C86_relu",
    "Aitisa.C86_sqrt",
    "Aitisa.C86_cast",
    "Aitisa.C86_binary",
    "Aitisa.C86_vector_vector",
    "Aitisa.C86_matrix_vector",
    "Aitisa.C86_vector_matrix",
    "Aitisa.C86_matrix_matrix",
    "Aitisa.C86_tensor_vector",
    "Aitisa.C86_vector_tensor",
    "Aitisa.C86_tensor_tensor",
    "Aitisa.C86_dot_vectors",
    "Aitisa.C86_dot_tensor_vector",
    "Aitisa.C86_dot_tensors",
    "Aitisa.C86_conv",
    "Aitisa.C86_max_pooling",
    "Aitisa.C86_avg_pooling"
   ],
   "note": "For float and double, on machines that do not fuse z + a * b. The limits are part of the statement; sums of products assume that no product of an element of one operand and one of the other falls below the normal numbers."
  },
  {
   "property": "C87",
   "status": "proved",
   "theorems": [
    "Aitisa.C87_sub",
    "Aitisa.C87_add",
    "Aitisa.C87_div"
   ],
   "note": "All machines with IEEE arithmetic. Signs of sums and differences are exact, close or tiny results are exact, a quotient is 1 only for equal numbers."
  },
  {
   "property": "C88",
   "status": "proved",
   "theorems": [
    "Aitisa.C88_square_root",
    "Aitisa.C88_sub_add",
    "Aitisa.C88_add_sub"
   ],
   "note": "All machines with IEEE arithmetic. Squaring then taking the root gives the magnitudes exactly; sub then add (add then sub) of the same tensor gives back the numbers where the first result is exact. The examples show that the condition on tiny squares is needed."
  },
  {
   "property": "C89",
   "status": "proved",
   "theorems": [
    "Aitisa.C89_difference",
    "Aitisa.C89_sum",
    "Aitisa.C89_integers"
   ],
   "note": "All machines with IEEE arithmetic. float and double: everything but NaN; integer types: elements whose opposite the type holds (an example shows that this is needed). The tensor of zeros may contain zeros of either sign and is any tensor of the same dims, e.g. one made by aitisa_full. Stated for whole tensors and for every behaviour of the allocator in which the four calls succeed; that they succeed is proved if no allocation fails."
  },
  {
   "property": "C90",
   "status": "proved",
   "theorems": [
    "Aitisa.C90_larger",
    "Aitisa.C90_smaller"
   ],
   "note": "All ten element types, all machines with IEEE arithmetic. The numbers and their differences must be in the range that the type holds without gaps; an example shows that the condition on the difference is needed. For unsigned types it leaves only pairs with a at least b. Stated for every behaviour of the allocator in which the three calls succeed; that they succeed is proved if no allocation fails."
  }
 ]
}