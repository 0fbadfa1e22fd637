{
"C01": ["proved", "All dtypes, devices, shapes whose products fit in int64 and all allocation-failure patterns."],
"C02": ["proved", "Adoption and rejection. Also proved: a length with a remainder is accepted (truncating division), and a dtype of size 0 divides by zero."],
"C03": ["proved", "The returned status is not part of the model's result because aitisa_resolve has no return statement. The length is the byte length modulo 2^32; C03_len_truncated shows it is wrong from 4 GiB on."],
"C04": ["proved", "Also proved: destroying through a second copy of the handle is a use after free."],
"C05": ["partial", "The claim is false for this code: C05_violated and C05_violated_oom prove it. C05_leak_bound_partial bounds the leak, C05_exact_partial says exactly what is leaked (every granted request), C05_holds_iff_partial says exactly when the claim holds (first request refused)."],
"C06": ["proved", "C06_operators: for every operator, all arguments (no well-formedness assumed), every environment and status; C06_values: operands keep their value; C06_cast: conversion. Output parameters and caller arrays are passed by value, so 'memory' is the heap."],
"C07": ["proved", "C07_operators, C07_cast: on success the newly live blocks are exactly the blocks reachable from the returned handle, for all arguments and environments. Leaks on failure are outside this claim (see C05, C48)."],
"C08": ["proved", "Buffers of arbitrary bytes, all ten types."],
"C09": ["proved", ""],
"C10": ["proved", "Also proved: unrepresentable value and more than INT_MAX elements are undefined behaviour."],
"C11": ["proved", "Conversions specified relationally (Converts). Undefined float-to-int conversions make the call undefined (C11_undefined)."],
"C12": ["partial", "The claim is false for this code (C12_violated; C12_same_type for every tensor). C12_partial covers distinct types; C12_exact_partial: a successful call delivers a new tensor if and only if the types differ."],
"C13": ["proved", "All pairs of integer types where the range of the first is contained in the second."],
"C14": ["proved", "All tensors with positive dims, all indices and coordinates, asserts on or off."],
"C15": ["proved", "All well-formed tensors (default layout)."],
"C16": ["proved", ""],
"C17": ["proved", "Also proved: associativity; 0 broadcast against 1 gives 1 (C17_zero_one)."],
"C18": ["proved", ""],
"C19": ["proved", "For every tensor with positive dims and every duplicate-free in-range axis list; negative counts and axes refused without effect."],
"C20": ["partial", "The claim is false; the three ways it fails are proved ([[C20_axis_too_large]], [[C20_repeated_axis]], [[C20_zero_dim]]). C20_exact_partial says exactly which axis lists are safe, for every tensor and every list, and C20_outcomes gives every outcome, both for an allocator that grants what is below 2^63 bytes and refuses the rest."],
"C21": ["proved", "Every request, rank and allocation pattern. Limits proved: C21_too_large, C21_rank0. Allocation failure may dereference null (the out_dims buffer is unchecked)."],
"C22": ["partial", "The claim is false when begin+size exceeds INT_MAX ([[C22_overflow]]); proved for all other parameter arrays. C22_exact_partial says exactly for which arrays of ints the request is refused and for which the check overflows."],
"C23": ["proved", "Division, ceiling, floor and the rounding of the '+ 1', for whatever nearest binary64 numbers the operations return."],
"C24": ["proved", ""],
"C25": ["partial", "The claim is false; proved exactly: [[C25_rank0]], [[C25_refused]], [[C25_too_large]], [[C25_truncated]]; C25_outcomes gives every outcome and C25_exact_partial exactly the tensors for which a copy is delivered."],
"C26": ["proved", "All ten dtypes, four operators, aliased arguments allowed. Up to INT_MAX elements (limit shown to be real). If malloc fails a null pointer is dereferenced (see C48)."],
"C27": ["proved", "All three refusals, in order; memory and *output untouched."],
"C28": ["proved", "Element level characterisation, and its effect on the whole call in both directions."],
"C29": ["proved", "Integer types unconditionally; float types under commutativity of the hardware operation."],
"C30": ["proved", "On STATUS_MATH_ERROR *output is nevertheless set to a new tensor (part of the theorem)."],
"C31": ["proved", "One theorem per rank combination; each bounds dims and the number of output elements by INT_MAX. C31_int_limit shows that this limit is the code's: an output with more than INT_MAX elements, or sums of more than INT_MAX terms, overflow the int counters for every shape of the table. In the batched cases a failed allocation of a temporary is dereferenced; without allocation failure the tensor is delivered. Float elements: multiplication and addition as two rounded operations."],
"C32": ["proved", "All four rejections; with incompatible batch dims the array of output dims is leaked, and a failed allocation of it is dereferenced."],
"C33": ["partial", "All documented shapes, all sizes, all pairs of dtypes: if an element of the second operand is at least as large as one of the first, the product is safe unless the output has elements that are sums of terms while an operand has none (C33_safe_partial), and in exactly those cases the empty operand is read outside its data (C33_empty_operand_violated). A second operand of smaller elements is read outside its data whenever the output has elements that are sums of terms, unless a sum overflows first (C33_smaller_dtype_violated). Missing: outputs without elements whose other dims multiply to more than INT_MAX; unknown dtype codes (C49)."],
"C34": ["partial", "vector-vector, matrix-matrix (same run as matmul), the error cases and the contraction of tensors are proved for all shapes and data with a nonempty inner dim and int-sized offsets; the scalar case is proved for the scalar after its conversion to double. Violated and proved so: an inner dim 0 gives STATUS_INVALID_ARGUMENT with the output set (tensor x vector) or a division by zero (tensor x tensor); a scalar not representable in double is rounded"],
"C35": ["proved", ""],
"C36": ["proved", "On STATUS_NOT_SUPPORTED *output is nevertheless set to a new uninitialised tensor (part of the theorem)."],
"C37": ["proved", "Relational: es are the converted exponentials, ys the converted quotients by the line sums. Element count below 2^62 for axis >= 0 (the last increment of linear_idx could overflow int64 otherwise). On allocation failure *output is overwritten (Tries)."],
"C38": ["proved", "Both modes, ranks 3 to 5, all window parameters within int, up to INT_MAX windows per channel. Max is the scan from 0.0 (see C39). Float types: the result exists for all data. Also proved: refusals, the leak of the too-large refusal ([[C38_too_large]]) and that an unknown mode returns uninitialised elements ([[C38_other_mode]])."],
"C39": ["partial", "The claim is false: [[C39_nonpositive_violated]] for every window without an element above 0.0, [[C39_violated]] for a whole call, [[C39_large_violated]] for integers beyond 2^53. C39_exact_partial says for all element types and data on IEEE machines what is computed (the greatest of 0 and the numbers of the window; NaNs are skipped) and that it is the maximum of the window if and only if the window has no NaN and an element that is not negative (integers below 2^53). C39_positive_partial needs no IEEE arithmetic, only an order on the doubles involved."],
"C40": ["proved", "All ranks from 2, all window parameters that fit, all data; at least one channel. The status is left open (C41). groups is ignored by the code: C40_groups_violated shows a documented grouped call failing. Also proved: C40_overlarge, C40_no_channels, C40_rank1_unchecked."],
"C41": ["partial", "The claim is false for every call on float tensors that completes ([[C41_violated]], [[C41_conv_violated]]). What does hold - the output is produced and the status is whatever is in the register - is part of C40."],
"C42": ["proved", "For every rank, dtype code and argument values; the filter handle may be anything."],
"C43": ["proved", "Scope as for duplicate (C24). C43_nan: a NaN rate is undefined behaviour. If the allocator fails dropout may dereference null (inherited from slice)."],
"C44": ["partial", "Proved for all ranks 2 to 5, both axes, all element types and data, for inputs without empty dims other than the number of samples and below 4 GiB per sample and channel (the code's uint32 offsets wrap beyond). Violated for empty inputs: [[C44_empty_violated]]."],
"C45": ["proved", "for every combination of valid tensors the status is that of the first violated requirement of an independent list, and memory and *output are untouched; that calls meeting all requirements are accepted is part of C44"],
"C46": ["partial", "Proved for histories of any length, chosen adaptively, in which every call meets the preconditions stated in Spec/Meets.lean, for every allocator: every call gives the stated result, or reports STATUS_ALLOC_FAILED after a refused request, or is a null dereference by an operator that does not check its allocations, after a refused request. With an allocator that cannot fail the full claim holds ([[C46_plenty]]). Missing: the null dereferences, for which the claim is false ([[C46_crash_violated]])."],
"C47": ["proved", "Histories of any length with arbitrary arguments; the program keeps each handle returned with success."],
"C48": ["partial", "Proved for the operators that check their allocations, on all arguments ([[C48_reported_partial]], [[C48_cast_reported]]), including that they do not crash. 'Only then' is proved for every operator and all arguments ([[C48_only_then]]). The rest is false for the careless operators: [[C48_violated]] has a crashing call for each, and the binary operators, slice, duplicate, dropout, pooling, the convolutions, products with a tensor of rank 3 or more, dot with a scalar and batch normalisation crash on all valid arguments if a certain request is refused ([[C48_binary_crash]], [[C48_slice_crash]], [[C48_duplicate_crash]], [[C48_dropout_crash]], [[C48_pooling_crash]], [[C48_conv2d_crash]], [[C48_conv3d_crash]], [[C48_matmul_crash]], [[C48_dot_left_crash]], [[C48_dot_right_crash]], [[C48_batchNorm_crash]], [[C48_batchNorm_channels_crash]]). That the careless ones otherwise report is in their functional theorems (Attempts, AttemptsMalloc, DeliversMalloc)."],
"C49": ["partial", "relu, sigmoid, tanh, sqrt, cast, slice, duplicate, dropout, softmax, pooling, conv and the dot cases with a scalar, tensor-vector or two tensors of rank at least 3 return STATUS_NOT_SUPPORTED. Violated (undefined behaviour: the code indexes a table of ten kernels) by full, the binary operators, matmul, the other dot cases and batch normalisation."],
"C50": ["proved", "Every legal history of Unary_Input, Binary_Input and Result objects, any environment; _violated theorems show that each excluded step (self-assignment of a sole owner, use of a moved-from object, second set_data) and Conv_Input / get_binary_sample go wrong."],
"C51": ["proved", "All operators, all arguments, all memories; also element writes, conversion, destruction and whole programs. Only completed calls are compared (a wild read has no defined result to compare)."],
"C52": ["proved", "All operators, all arguments. Only completed calls are compared: a call that aborts on an assertion may do anything in a build without assertions."],
"C53": ["proved", "C53_statuses: completeness for all arguments, memories and allocators (memory well-formed); C53_attained: each entry attained; C53_never; conversion: C53_cast, C53_cast_attained. What the register holds is a parameter of the model of the convolutions (see C40)."],
"C54": ["proved", "Filling (both ways, all types), unary and binary set-up, and the whole fixture up to the created tensor; C54_large shows what happens at 4 GiB and above; C54_repo_inputs checks the inputs of the repository against the conditions. Random numbers are arbitrary numbers of the announced range; uniform_int_distribution of an 8-bit type, which the C++ standard leaves undefined, is treated like the others."],
"C55": ["proved", "For every closeness test (exact equality, |x-y| < 1e-3, ASSERT_FLOAT_EQ): it is a parameter. The user's result is a tensor in memory as the library would resolve it."],
"C56": ["proved", "For IEEE arithmetic with or without fused multiply-add (Machine). For 64-bit integer types the pooling claims need the elements below 2^53, since the code goes through double. Addition and the like of integers need the result in range; outside, C18 says what happens."],
"C57": ["proved", "For IEEE arithmetic with or without fused multiply-add (Machine), all bit patterns. The canonical NaN is used as result of invalid operations, so commutation holds bit by bit in the model; on hardware that propagates NaN payloads the payload of a NaN result may depend on the order."],
"C58": ["proved", "For IEEE arithmetic with or without fused multiply-add (Machine); the bound 2^52+2^27 is sharp (C58_int64_violated)."],
"C59": ["proved", "For IEEE arithmetic with or without fused multiply-add (Machine) with any exponential function satisfying ExpOK (and ExpMono for the order); the exponential function of ieee is one (C59_exp)."],
"C60": ["partial", "Violated: tanh and softmax of 1000 are NaN because exp overflows (C60_tanh_violated, C60_softmax_violated). The partial theorems give the exact condition for a NaN result and show that every other result is in the range; C60_tanh_odd and the order of the shares hold without further restrictions."],
"C61": ["proved", "For broadcast operands of different shapes the exchange is not claimed. Tensors must meet the conditions under which the single operators are proved (C15, C17, C19, C21, C24, C28, C36)."],
"C62": ["proved", "Convolution has a meaningless status (C41), so its theorem allows any status. Values for which an operator is undefined (overflow of int, division by zero) are excluded by hypothesis."],
"C63": ["proved", "A calculation is a tree of calls of add, sub, mul, div and full. C63_polynomials: if two trees are the same polynomial (SamePoly) and defined, they give equal tensors, for every integer type. C63_always_defined gives the types for which they are always defined. C63_mul_div for division."],
"C64": ["proved", "For IEEE arithmetic with or without fused multiply-add (Machine), the softfloat of Spec/Ieee.lean; C64_commutes for every floating-point unit whose sums and products commute. The hypotheses (no NaN, no minus zero, finite, not zero) are stated for the element at each position; an example shows that minus zero plus zero is plus zero."],
"C65": ["proved", "For all trees of matmul, dot, add, sub and mul on matrices of an integer type; the three-matrix laws are instances of C65_same_numbers. Which sums and products C defines is said by the hypothesis Defined, discharged for five types by C65_always_defined. Products of vectors and of batches are not part of the trees."],
"C66": ["proved", "On IEEE arithmetic (Spec/Ieee.lean) with or without fused multiply-add, for all ten types. The hypotheses exclude infinities and NaN (0 times them is NaN) and minus zeros (which become plus zeros); an example shows that both are needed."],
"C67": ["proved", "Constructors, copies, moves, assignments and set_data of the three input classes and Result; the assignment of Conv_Input is undefined behaviour (C50). The conversion of the rank to int in the constructor of Conv_Input is not modelled."],
"C68": ["proved", "On IEEE arithmetic (Spec/Ieee.lean) with or without fused multiply-add where elements are computed. As for C40, a convolution ends without a return statement; the result is stated for every value the missing return may have (C41). Batch normalisation and pooling are subject to the size bounds of C44 and C38."],
"C69": ["proved", "Two sequences of casts with the same end agree wherever the element conversions agree (C69_sequences); integer sequences through types at least as large as the last equal one cast, with wrap-around (C69_integers); exact condition for narrowing and back (C69_narrow_back); whole numbers (C69_whole); through double (C69_through_double, C69_double_back)."],
"C70": ["proved", "Holds for all calls that complete; a call that fails or is undefined with one allocator is not compared. The two functions of an allocator are exchanged together. Building blocks: [[Mixed.run]], [[Mixed.finish]], [[Local.under]]"],
"C71": ["proved", "For every operator (Call), for conversion and for programs, as an equivalence between the run in memory with read-only blocks and the run in writable memory; the two theorems about set_item and destroy show that the model does notice writes."],
"C72": ["proved", "Softmax, batch normalisation, pooling (average and maximum), matmul of a stack of matrices with a matrix or a vector; any floating-point behaviour."],
"C73": ["proved", "Unit axes for pooling and convolution; convolutions that are matrix products; dot against matmul; softmax of vectors. C73_swap discharges the hypothesis on multiplication, with and without fused multiply-add."],
"C74": ["proved", "All five index functions, with and without assertions."],
"C75": ["proved", "On IEEE arithmetic (Machine) the elementwise operators, casts to float/double and sqrt deliver the exact result correctly rounded (C75_binary, C75_cast, C75_sqrt, the last also through double); C75_error bounds the error and C75_unique shows the specification determines the number. Only for finite operands; what NaN and infinities give is C57 and the definition of ieee."],
"C76": ["proved", "On IEEE arithmetic, with or without fused multiply-add (even mixed), every float or double element of matmul (seven shape combinations), dot and conv is within the stated bound of the exact sum of products, and is a number below the end of the range. C76_simple gives the bound in simpler terms, C76_positive that it is relative if no product is negative. dot of two matrices is matmul (C34_matrix_matrix)."],
"C77": ["proved", "On IEEE arithmetic (Machine), for float and double tensors of finite numbers. C77_simple gives the bound in simpler terms."],
"C78": ["proved", "On IEEE arithmetic; sums of products on a machine that always or never fuses multiply-add (Uniform), and C78_mixed shows that this is needed. dot of two matrices is matmul (C34_matrix_matrix)."],
"C79": ["proved", "On IEEE arithmetic, within the size limits of C44 (BnSmall, no empty dims). d is determined by Denominator (correct rounding determines each step), C79_denominator bounds its square."],
"C80": ["proved", "On IEEE arithmetic (Machine), relative to the exponentials that the machine computes. Lines whose exponentials are infinite or all 0 are the subject of C60."],
"C81": ["proved", "relu before and after ([[C81_relu_before]], [[C81_relu_after]]), conversion to double ([[C81_cast]]), merging ([[C81_merge]]), square roots ([[C81_sqrt]]). Machines with IEEE arithmetic, fused or not."],
"C82": ["proved", "[[C82_max_pooling]], [[C82_avg_pooling]], [[C82_conv]] (finite filters; exact without fused multiply-adds, up to the sign of a zero with them)."],
"C83": ["proved", "[[C83_conv]]: same elements to the last bit without padding, or without fused multiply-adds and with finite filters; same numbers otherwise (finite filters)."],
"C84": ["proved", "[[C84_max_pooling]], [[C84_avg_pooling]], [[C84_conv]], [[C84_matmul]] (matrices); no assumption on the arithmetic."],
"C85": ["proved", "For float and double. The partial claims about dot (C34) bound the shapes for dot; sums of products need a machine that fuses always or never (as in C78)."],
"C86": ["proved", "For float and double, on machines that do not fuse z + a * b. The limits are part of the statement; sums of products assume that no product of an element of one operand and one of the other falls below the normal numbers."],
"C87": ["proved", "All machines with IEEE arithmetic. Signs of sums and differences are exact, close or tiny results are exact, a quotient is 1 only for equal numbers."],
"C88": ["proved", "All machines with IEEE arithmetic. Squaring then taking the root gives the magnitudes exactly; sub then add (add then sub) of the same tensor gives back the numbers where the first result is exact. The examples show that the condition on tiny squares is needed."],
"C89": ["proved", "All machines with IEEE arithmetic. float and double: everything but NaN; integer types: elements whose opposite the type holds (an example shows that this is needed). The tensor of zeros may contain zeros of either sign and is any tensor of the same dims, e.g. one made by aitisa_full. Stated for whole tensors and for every behaviour of the allocator in which the four calls succeed; that they succeed is proved if no allocation fails."],
"C90": ["proved", "All ten element types, all machines with IEEE arithmetic. The numbers and their differences must be in the range that the type holds without gaps; an example shows that the condition on the difference is needed. For unsigned types it leaves only pairs with a at least b. Stated for every behaviour of the allocator in which the three calls succeed; that they succeed is proved if no allocation fails."]
}
