{"id": "C01", "title": "Creating a tensor delivers exactly what was asked for, or reports allocation failure", "statement": "aitisa_create with data==NULL, non-negative dims whose product does not overflow, either returns STATUS_SUCCESS and sets *output to a new dense tensor with exactly the requested dtype, device, number of dimensions and dims, size = product of dims and a data buffer of size*dtype.size bytes, all in freshly allocated memory; or returns STATUS_ALLOC_FAILED and leaves *output as it was. In both cases no memory that existed before the call is modified.", "quantifier": "every dtype, device, rank, dims list and every pattern of allocator successes and failures", "why_tests_cant": "ranks and dims are unbounded and an allocator can fail at any of the up to five requests; tests run a few shapes with an allocator that never fails", "anchors": ["src/core/tensor.c:aitisa_create", "src/core/shape.c:aitisa_create_shape", "src/core/storage.c:aitisa_create_storage", "src/core/utils.h:size_of_dims"]}
{"id": "C02", "title": "A caller's buffer is adopted exactly when its length matches", "statement": "aitisa_create with data!=NULL returns STATUS_INVALID_ARGUMENT without touching *output when len/dtype.size differs from the product of dims; otherwise (and if allocation succeeds) the new tensor uses that very buffer: its contents are not copied or changed, and the tensor owns it afterwards.", "quantifier": "every buffer, len, dtype size > 0, dims and allocator behaviour", "why_tests_cant": "the acceptance condition is an arithmetic relation over unbounded inputs", "anchors": ["src/core/tensor.c:aitisa_create", "src/core/storage.c:aitisa_create_storage"]}
{"id": "C03", "title": "Resolving a tensor returns what it was created with", "statement": "After a successful aitisa_create, aitisa_resolve yields the same dtype, device, ndim, dims values and data pointer, and len = size*dtype.size reduced modulo 2^32; it changes no memory.", "quantifier": "every created tensor", "why_tests_cant": "round trip over all shapes and dtypes, including the 32-bit truncation of len", "anchors": ["src/core/tensor.c:aitisa_resolve", "src/core/tensor.c:aitisa_create"]}
{"id": "C04", "title": "Create then destroy is a no-op on memory, and destroy is safe to repeat on the same handle", "statement": "Destroying a tensor frees exactly the blocks the tensor consists of (descriptor, dims, layout, storage, data), sets the handle to NULL, returns STATUS_SUCCESS; so after create+destroy the set of live allocations and their contents are exactly what they were before. Destroying a NULL handle does nothing and returns STATUS_SUCCESS.", "quantifier": "every well-formed tensor in every memory state", "why_tests_cant": "absence of leaks and of double frees must hold for every shape and surrounding heap", "anchors": ["src/core/tensor.c:aitisa_destroy", "src/core/shape.c:aitisa_destroy_shape", "src/core/storage.c:aitisa_destroy_storage"]}
{"id": "C05", "title": "A failed create leaks nothing", "statement": "If aitisa_create returns an error status then every block it allocated has been released. (The code violates this: the descriptor, and possibly dims/layout/storage, are leaked; the violation is proved, with the exact set of leaked blocks bounded.)", "quantifier": "every failing call", "why_tests_cant": "needs every allocation-failure point to be explored", "anchors": ["src/core/tensor.c:aitisa_create", "src/core/shape.c:aitisa_create_shape", "src/core/storage.c:aitisa_create_storage"]}
{"id": "C06", "title": "Operators never modify their inputs and their outputs share no memory with them", "statement": "Every operator (reshape, squeeze, slice, duplicate, cast, full, add/sub/mul/div, sqrt, matmul, dot, conv, pooling, relu, sigmoid, tanh, softmax, dropout, batch_norm) that completes leaves every pre-existing block of memory bit-for-bit unchanged, and the tensor it returns on success lies entirely in memory allocated by the call. (cast to the tensor's own dtype returns success and no tensor, see C12; it too leaves all memory unchanged.)", "quantifier": "every operator, every argument (also ill-formed ones, and the same tensor passed twice), every status returned, every allocator behaviour for which the call completes", "why_tests_cant": "a universally quantified frame condition over the whole memory", "anchors": ["src/basic/*.c", "src/math/*.c", "src/nn/*.c"]}
{"id": "C07", "title": "Operators leak nothing on success", "statement": "When an operator returns STATUS_SUCCESS the only live allocations that did not exist before the call are the five blocks of the returned tensor.", "quantifier": "every operator, shape, dtype and allocator behaviour", "why_tests_cant": "must account for every scratch allocation on every path and loop iteration", "anchors": ["src/basic/*.c", "src/math/*.c", "src/nn/*.c"]}
{"id": "C08", "title": "Typed element access is a faithful array", "statement": "For each of the ten element types, storing a value at index i and loading index j of the same buffer returns the stored value if i=j and the previous value otherwise, for every in-range i, j; loading then storing back is the identity on the bytes. Accesses outside the buffer are never silently accepted.", "quantifier": "all ten dtypes, all values, all indices, all buffers", "why_tests_cant": "value and index spaces are unbounded/huge", "anchors": ["src/core/types.c:get_typed_array_value_funcs", "src/core/types.c:set_typed_array_value_funcs", "src/core/tensor.h:aitisa_tensor_set_item"]}
{"id": "C09", "title": "set_item writes one element and nothing else", "statement": "aitisa_tensor_set_item(t,i,v) makes element i of t equal to v and leaves every other element of t and every other tensor unchanged.", "quantifier": "every tensor, every valid index, every value", "why_tests_cant": "frame condition over all indices and all other memory", "anchors": ["src/core/tensor.h:aitisa_tensor_set_item"]}
{"id": "C10", "title": "full() fills every element with the converted value", "statement": "For a shape of at most INT_MAX elements aitisa_full returns a tensor of the requested shape in which every element equals the given double converted to dtype by the C conversion rules; a value that is not representable in an integer dtype is undefined behaviour, not a silent wrap. (Above INT_MAX elements the int loop counter overflows; proved.)", "quantifier": "every dtype, dims, value and allocator behaviour", "why_tests_cant": "every element index and every double", "anchors": ["src/basic/factories.c:aitisa_full", "src/core/types.c:castto_typed_value_funcs"]}
{"id": "C11", "title": "cast converts elementwise and keeps the shape", "statement": "aitisa_cast to a different dtype returns a new tensor with the same dims and device in which element i is the C conversion of input element i.", "quantifier": "every pair of distinct dtypes, every shape, every data", "why_tests_cant": "10x9 conversions over all values and sizes", "anchors": ["src/basic/cast.c:aitisa_cast", "src/basic/cast.c:cast_template"]}
{"id": "C12", "title": "A successful cast always delivers an output tensor", "statement": "Whenever aitisa_cast returns STATUS_SUCCESS, *output is a tensor of the requested dtype. (The code violates this when the requested dtype equals the input's dtype: it reports success and leaves *output untouched; proved.)", "quantifier": "every input and dtype", "why_tests_cant": "universal over all inputs; the existing tests never cast to the same dtype", "anchors": ["src/basic/cast.c:aitisa_cast"]}
{"id": "C13", "title": "Casting an integer tensor to a wider integer type and back is the identity", "statement": "For integer types where every value of the first is representable in the second, casting to the second and back restores every element.", "quantifier": "all such pairs of integer dtypes, all shapes, all data", "why_tests_cant": "all values of all integer types", "anchors": ["src/basic/cast.c:cast_kernel"]}
{"id": "C14", "title": "Linear index and coordinates are inverse bijections", "statement": "For a tensor with positive dims, aitisa_linidx_to_coords followed by aitisa_coords_to_linidx is the identity on [0,size), and the converse is the identity on in-range coordinates; no assertion fires.", "quantifier": "every rank, every positive dims, every index", "why_tests_cant": "bijection on unbounded index spaces of unbounded rank", "anchors": ["src/basic/index_utils.c:aitisa_coords_to_linidx", "src/basic/index_utils.c:aitisa_linidx_to_coords"]}
{"id": "C15", "title": "For tensors made by this library the memory offset equals the row-major linear index", "statement": "aitisa_coords_to_offset = aitisa_coords_to_linidx and aitisa_offset_to_coords = aitisa_linidx_to_coords, and the offset is below the size.", "quantifier": "every tensor with the default layout, every in-range coordinate", "why_tests_cant": "all ranks and coordinates", "anchors": ["src/basic/index_utils.c:aitisa_coords_to_offset", "src/basic/index_utils.c:aitisa_offset_to_coords", "src/core/shape.c:aitisa_create_default_layout"]}
{"id": "C16", "title": "Strides are the weights of the offset map", "statement": "aitisa_get_stride(t,d) is the product of the dims after d, aitisa_get_all_strides agrees with it in every position, and the offset of a coordinate is the sum of coordinate*stride.", "quantifier": "every tensor and dimension", "why_tests_cant": "all ranks", "anchors": ["src/basic/index_utils.c:aitisa_get_stride", "src/basic/index_utils.c:aitisa_get_all_strides"]}
{"id": "C17", "title": "Broadcasting follows the documented rule", "statement": "aitisa_broadcast_array succeeds iff, aligning the two shapes at the right end, every pair of dims is equal or contains a 1; then each output dim is the larger one of the pair (or the only one); otherwise STATUS_DIMENSIONS_MISMATCH. The result does not depend on argument order, broadcasting a shape with itself or with the empty shape is the identity.", "quantifier": "all pairs of shapes of any ranks", "why_tests_cant": "unbounded ranks and dims", "anchors": ["src/basic/broadcast.c:aitisa_broadcast_array"]}
{"id": "C18", "title": "reshape preserves the row-major data and rejects different sizes", "statement": "aitisa_reshape succeeds only if the product of the new dims equals the input size (otherwise STATUS_DIMENSIONS_MISMATCH, output untouched); the result has the new dims, the same dtype/device and byte-identical data; reshaping twice equals reshaping once to the last shape.", "quantifier": "every tensor, every target shape, every allocator behaviour", "why_tests_cant": "all shapes and data", "anchors": ["src/basic/reshape.c:aitisa_reshape"]}
{"id": "C19", "title": "squeeze removes exactly the requested unit dimensions", "statement": "For a tensor with positive dims and distinct in-range axes, aitisa_squeeze returns a tensor whose dims are the input dims without those requested axes whose length is 1 (all unit axes if num_axis is 0), with identical data; negative num_axis or a negative axis gives STATUS_INVALID_ARGUMENT.", "quantifier": "every tensor, every axis list", "why_tests_cant": "all ranks and axis subsets", "anchors": ["src/basic/squeeze.c:aitisa_squeeze"]}
{"id": "C20", "title": "squeeze is memory-safe for every axis list", "statement": "No axis list makes aitisa_squeeze access memory out of bounds or read uninitialised memory. (Violated: a repeated unit axis overflows the heap buffer, an axis >= ndim reads out of bounds, a zero-length dimension makes it read an uninitialised dim; each proved.)", "quantifier": "every tensor and axis list", "why_tests_cant": "universal; the failing inputs are not in the test-suite", "anchors": ["src/basic/squeeze.c:aitisa_squeeze"]}
{"id": "C21", "title": "slice returns exactly the requested sub-grid", "statement": "For parameters that pass validation and a result of at most INT_MAX elements aitisa_slice returns a tensor whose dims are ceil(size[i]/step[i]) for the axes with size[i]>0 (axes with size 0 are dropped and indexed at begin), and whose element at output coordinate (c) is the input element at begin+step*c, in row-major order. (More elements overflow the int loop counter, and rank 0 writes out of bounds; proved.)", "quantifier": "every tensor with at least one dimension, every begin/size/step", "why_tests_cant": "the odometer loop must be right for every rank, step and carry", "anchors": ["src/basic/slice.c:aitisa_slice", "src/basic/slice.c:slice_kernel", "src/basic/slice.c:slice_create_output"]}
{"id": "C22", "title": "slice rejects out-of-range parameters without touching the output", "statement": "aitisa_slice returns STATUS_INVALID_ARGUMENT, leaving *output and memory unchanged, whenever some axis has begin outside [0,dim), size<0, begin+size>dim or step<1. (Holds when begin+size fits in int; violated otherwise: the check itself overflows, proved.)", "quantifier": "all parameter arrays", "why_tests_cant": "boundary conditions over all ints, including overflow", "anchors": ["src/basic/slice.c:slice_check_parameters"]}
{"id": "C23", "title": "Computing output dims through double is exact", "statement": "The ceil((double)size/(double)step) in slice equals the exact integer ceiling for every pair of 32-bit ints with step>=1, and the floor(...) expression in pooling equals the exact integer floor whenever the quantities involved are below 2^31, in IEEE-754 binary64 round-to-nearest.", "quantifier": "all pairs of ints", "why_tests_cant": "2^62 pairs; rounding error must be bounded analytically", "anchors": ["src/basic/slice.c:slice_create_output", "src/nn/pooling.c:pooling_create_output"]}
{"id": "C24", "title": "duplicate makes an equal, independent copy", "statement": "For a tensor of rank>=1 with positive dims and at most INT_MAX elements, aitisa_duplicate returns a tensor with equal dtype, device, dims and data; later writes to the copy never show in the original and vice versa.", "quantifier": "every such tensor, every later write", "why_tests_cant": "independence quantifies over all later writes", "anchors": ["src/basic/duplicate.c:aitisa_duplicate"]}
{"id": "C25", "title": "duplicate works for every tensor", "statement": "aitisa_duplicate succeeds for every well-formed tensor when memory is available. (Violated: a rank-0 tensor triggers an out-of-bounds write, a tensor with a zero-length dimension is rejected with STATUS_INVALID_ARGUMENT, one with more than INT_MAX elements overflows the loop counter or is silently truncated; proved.)", "quantifier": "every tensor", "why_tests_cant": "universal over shapes including degenerate ones", "anchors": ["src/basic/duplicate.c:aitisa_duplicate", "src/basic/slice.c:slice_template"]}
{"id": "C26", "title": "add/sub/mul/div are elementwise in the tensor's dtype", "statement": "For two CPU tensors of equal dtype and dims whose element operations are all defined in C, aitisa_add/sub/mul/div return a tensor of the same dtype, device and dims with element i = C-semantics op of the inputs' elements i.", "quantifier": "ten dtypes, four ops, every shape, all data", "why_tests_cant": "all values and sizes; integer promotion and wrap-around per type", "anchors": ["src/math/binary_op.c:aitisa_add", "src/math/binary_op.c:aitisa_sub", "src/math/binary_op.c:aitisa_mul", "src/math/binary_op.c:aitisa_div"]}
{"id": "C27", "title": "Binary operators report mismatches in a fixed order of precedence", "statement": "STATUS_NOT_SUPPORTED if either device is not CPU; else STATUS_TYPE_MISMATCH if dtype codes differ; else STATUS_INVALID_ARGUMENT if ndim or any dim differs; in all these cases memory and *output are unchanged.", "quantifier": "every pair of tensors", "why_tests_cant": "all combinations of devices, dtypes, shapes", "anchors": ["src/math/binary_op.c"]}
{"id": "C28", "title": "Exactly which integer element operations are undefined", "statement": "The element operation of add/sub/mul/div is undefined only for: division by zero; int32/int64 results out of range; uint16 products above INT_MAX. Otherwise 8/16-bit and unsigned results are the exact result reduced into the type's range.", "quantifier": "all integer dtypes, all operand pairs", "why_tests_cant": "2^128 operand pairs", "anchors": ["src/math/binary_op.c:calc_int8_value", "src/math/binary_op.c:calc_uint16_value", "src/math/binary_op.c:calc_int32_value", "src/math/binary_op.c:calc_int64_value"]}
{"id": "C29", "title": "add and mul are commutative", "statement": "aitisa_add(a,b) and aitisa_add(b,a) produce equal tensors (likewise mul) for integer dtypes, and for floating dtypes if the hardware operation is commutative.", "quantifier": "all inputs", "why_tests_cant": "all values", "anchors": ["src/math/binary_op.c:aitisa_add", "src/math/binary_op.c:aitisa_mul"]}
{"id": "C30", "title": "sqrt is elementwise and reports negative inputs", "statement": "aitisa_sqrt returns STATUS_SUCCESS with element i = (dtype) sqrt((double) x_i) iff no element is negative; otherwise it returns STATUS_MATH_ERROR.", "quantifier": "every dtype, shape, data", "why_tests_cant": "the status depends on all elements", "anchors": ["src/math/sqrt.c:aitisa_sqrt"]}
{"id": "C31", "title": "matmul computes the matrix product in every rank combination", "statement": "aitisa_matmul of same-dtype CPU tensors with matching inner dims returns a tensor whose shape follows the documented table and whose elements are the left-to-right accumulated sums of products over the inner dimension, where for rank>=3 operands the batch coordinates are broadcast.", "quantifier": "all rank combinations >=1, all shapes with positive dims, all data", "why_tests_cant": "unbounded rank, broadcasting strides and batch offsets", "anchors": ["src/math/matmul.c:aitisa_matmul", "src/math/matmul.c:batch_strides", "src/math/matmul.c:MM_KERNEL"]}
{"id": "C32", "title": "matmul rejects bad operands", "statement": "A rank-0 operand gives STATUS_INVALID_ARGUMENT, a non-CPU device STATUS_NOT_SUPPORTED, different inner dims or non-broadcastable batch dims STATUS_DIMENSIONS_MISMATCH; *output unchanged.", "quantifier": "all operand pairs", "why_tests_cant": "all shapes", "anchors": ["src/math/matmul.c:aitisa_matmul"]}
{"id": "C33", "title": "matmul is memory-safe for every pair of tensors", "statement": "aitisa_matmul never reads outside its operands. (Violated: operands of different dtypes are not rejected and the second is read with the first's element size; a zero batch dim broadcast against 1 yields 1 and reads from an empty buffer; proved.)", "quantifier": "all pairs of well-formed tensors", "why_tests_cant": "universal memory safety", "anchors": ["src/math/matmul.c:aitisa_matmul", "src/basic/broadcast.c:aitisa_broadcast_array"]}
{"id": "C34", "title": "dot follows its documented case table", "statement": "aitisa_dot: 1-D x 1-D gives the inner product as a 1-element tensor; 2-D x 2-D equals matmul; a rank-0 operand scales the other; N-D x 1-D contracts the last axis; N-D x M-D (both > 2) contracts the last axis of the first with the second-to-last of the second: out[i..,k..,m]=sum_j a[i..,j]*b[k..,j,m]; anything else STATUS_INVALID_ARGUMENT.", "quantifier": "all rank pairs, shapes, data", "why_tests_cant": "unbounded ranks; per-vector slicing loops", "anchors": ["src/math/dot.c:aitisa_dot", "src/math/dot.c:multidim_dot", "src/math/dot.c:tensor_vector_dot", "src/math/dot.c:scalar_tensor_mul"]}
{"id": "C35", "title": "relu clamps at zero and is idempotent", "statement": "aitisa_relu returns element i = x_i if x_i>0 else 0, same shape and dtype; applying it twice gives the same data as once.", "quantifier": "every dtype, shape, data", "why_tests_cant": "all values and sizes", "anchors": ["src/nn/relu.c:aitisa_relu"]}
{"id": "C36", "title": "sigmoid and tanh are elementwise on floating tensors and refuse others", "statement": "For float/double tensors element i is (dtype)(1/(1+exp(-x))) resp. (dtype)((exp x - exp -x)/(exp x + exp -x)); for the other dtypes STATUS_NOT_SUPPORTED.", "quantifier": "every shape, dtype, data", "why_tests_cant": "all values and sizes", "anchors": ["src/nn/sigmoid.c:aitisa_sigmoid", "src/nn/tanh.c:aitisa_tanh"]}
{"id": "C37", "title": "softmax normalises along exactly the chosen axis", "statement": "aitisa_softmax(axis>=0) on fewer than 2^62 elements: each element is (dtype)(e/total) where e=(dtype)exp(x) and total is the double sum of the e's over the line through that element along the axis; axis=-1 uses all elements; any other axis gives STATUS_NOT_SUPPORTED with no effect.", "quantifier": "every rank, axis, shape, data", "why_tests_cant": "odometer skipping an axis, all ranks", "anchors": ["src/nn/softmax.c:aitisa_softmax", "src/nn/softmax.c:softmax_along_axis"]}
{"id": "C38", "title": "pooling visits every window exactly once", "statement": "aitisa_pooling on rank 3..5 with ksize,stride,dilation>=1, padding>=0 and windows that fit returns out dims floor((in+2p-d(k-1)-1)/s)+1 and each output element is the avg (sum of in-range elements / window size) or max over its window; the window loop terminates.", "quantifier": "all shapes, window parameters, data", "why_tests_cant": "nested odometers with while loops; termination", "anchors": ["src/nn/pooling.c:pooling_double", "src/nn/pooling.c:pooling_create_output"]}
{"id": "C39", "title": "max pooling returns the maximum of the window", "statement": "Every output of max pooling is the maximum of the in-range elements of its window. (Violated: the running maximum starts at 0, so all-negative windows give 0; proved.)", "quantifier": "all data", "why_tests_cant": "universal over data; tests only pool non-negative data", "anchors": ["src/nn/pooling.c:pooling_double"]}
{"id": "C40", "title": "Convolution computes the padded, strided, dilated cross-correlation", "statement": "For float input [N,C,..] and filter [O,C,..] the tensor produced has dims [N,O,(in+2p-(d(k-1)+1))/s+1..] and element = sum over channels then filter positions, of input*filter at in-range positions.", "quantifier": "all ranks, shapes, strides, paddings, dilations, data", "why_tests_cant": "nested loops over unbounded ranks", "anchors": ["src/nn/conv.c:aitisa_conv_float", "src/nn/conv.c:conv_output_dims"]}
{"id": "C41", "title": "Convolution reports a status", "statement": "aitisa_conv returns STATUS_SUCCESS when it has produced its output. (Violated: control reaches the end of the non-void functions aitisa_conv_float and aitisa_conv; the value used by CHECK_STATUS is undefined; proved.)", "quantifier": "every call on float tensors", "why_tests_cant": "undefined behaviour is not observable by a test that happens to pass", "anchors": ["src/nn/conv.c:aitisa_conv"]}
{"id": "C42", "title": "conv2d/conv3d check the rank", "statement": "aitisa_conv2d (conv3d) returns STATUS_DIMENSIONS_MISMATCH with no effect unless the input has rank 4 (5); non-float input gives STATUS_NOT_SUPPORTED.", "quantifier": "every input", "why_tests_cant": "all ranks and dtypes", "anchors": ["src/nn/conv.c:aitisa_conv2d", "src/nn/conv.c:aitisa_conv3d"]}
{"id": "C43", "title": "dropout zeroes or keeps, and never otherwise alters, elements", "statement": "For every tensor that can be duplicated and every random sequence, each output element equals the input element or zero, zero exactly where the random number in 1..100 is at most the truncated percentage of the rate; a percentage that truncates to 0 keeps all elements, one that reaches 100 zeroes all; a rate below 0 or above 1 gives STATUS_INVALID_ARGUMENT with no effect. (A NaN rate passes the check and is undefined behaviour; proved.)", "quantifier": "every random stream, rate, shape, data", "why_tests_cant": "must hold for every random outcome", "anchors": ["src/nn/dropout.c:aitisa_dropout"]}
{"id": "C44", "title": "batch_norm applies the per-channel affine normalisation", "statement": "aitisa_batch_norm (axis 1 or last, rank 2..5) returns, for each element in channel c, scale_c*((x-mean_c)/sqrt(var_c+eps))+bias_c computed in the dtype, in the element's original position.", "quantifier": "all ranks 2..5, both axes, shapes, data", "why_tests_cant": "slice/squeeze/arith/transport pipeline for all shapes", "anchors": ["src/nn/batch_norm.c:aitisa_batch_norm"]}
{"id": "C45", "title": "batch_norm validates its parameters in order", "statement": "Wrong rank -> STATUS_DIMENSIONS_MISMATCH; wrong axis -> STATUS_INVALID_ARGUMENT; dtype mismatch -> STATUS_TYPE_MISMATCH; parameter length/rank mismatch -> STATUS_DIMENSIONS_MISMATCH; negative epsilon -> STATUS_INVALID_ARGUMENT; no effect in these cases.", "quantifier": "all argument combinations", "why_tests_cant": "all combinations", "anchors": ["src/nn/batch_norm.c:batch_norm_check_parameters"]}
{"id": "C46", "title": "Any history of API calls is safe", "statement": "For any sequence of API calls on handles obtained from the API (create, full, destroy, reshape, slice, duplicate, cast, arithmetic, activations ...) in which each call meets its documented preconditions, no call has undefined behaviour, every live handle always denotes a well-formed tensor disjoint from all others, and a tensor's value only changes by set_item on that tensor.", "quantifier": "every finite history of calls and every allocator behaviour", "why_tests_cant": "quantifies over all call sequences", "anchors": ["src/core/tensor.c", "src/basic/*.c", "src/math/*.c", "src/nn/*.c"]}
{"id": "C47", "title": "Destroying every live handle at the end of any failure-free history returns all memory", "statement": "After any history in which every call succeeded, destroying all live handles leaves no live allocation.", "quantifier": "every finite history", "why_tests_cant": "quantifies over all call sequences", "anchors": ["src/core/tensor.c:aitisa_destroy"]}
{"id": "C48", "title": "Operators report allocation failure instead of crashing", "statement": "If the allocator returns NULL at any request, the operator returns STATUS_ALLOC_FAILED (and only then), leaves existing memory and *output as they were, and does not crash. (Holds for create, full, reshape, squeeze, cast, relu, sigmoid, tanh, sqrt; softmax reports but overwrites *output with an indeterminate pointer; violated by slice, duplicate, dropout, add/sub/mul/div, matmul, dot, conv2d, conv3d, pooling and batch_norm, which dereference null.)", "quantifier": "every failure point", "why_tests_cant": "each allocation is a distinct crash point", "anchors": ["src/basic/*.c", "src/math/binary_op.c", "src/math/matmul.c", "src/nn/conv.c", "src/nn/pooling.c"]}
{"id": "C49", "title": "Unknown dtype codes are refused", "statement": "Operators that dispatch on dtype return STATUS_NOT_SUPPORTED for a dtype code outside the ten defined ones.", "quantifier": "every code", "why_tests_cant": "all codes", "anchors": ["src/core/dispatch.h"]}
{"id": "C50", "title": "Reference counting of the auto-test inputs frees each buffer exactly once", "statement": "For any sequence of constructions, copies, moves, assignments, destructions and set_data/set_result calls on the auto-test Unary_Input, Binary_Input and Result objects that copies and assigns only objects that have not been moved from, attaches buffers only to empty places of unshared objects, and does not assign an unshared object to itself, no buffer is freed while an object still has it, none is freed twice, and each is freed with its last owner; only counters may be left behind (one per assignment, and one per Result). Each of the exclusions is needed: the excluded steps double-free, dereference null or leak. Conv_Input copies and the samples of get_binary_sample double-free.", "quantifier": "every history of copy/move/assign/destroy", "why_tests_cant": "quantifies over histories", "anchors": ["auto_test/sample.h:Unary_Input", "auto_test/sample.cpp:Unary_Input::operator="]}
{"id": "C51", "title": "A call is not affected by memory it was not given", "statement": "A call of any operator, with any arguments, that completes gives the same status and result and makes the same changes to memory when other blocks are allocated as well, and leaves those blocks as they are. The same holds for element writes, conversion, destruction and whole programs of such calls.", "quantifier": "every call, all arguments, every memory and every additional memory", "why_tests_cant": "quantifies over all memory layouts and over what else a program has allocated", "anchors": ["src/core/*.c", "src/basic/*.c", "src/math/*.c", "src/nn/*.c"]}
{"id": "C52", "title": "A call depends on nothing but its arguments, the arithmetic, the answers to its own requests and the random numbers it draws", "statement": "A call of any operator that completes gives the same result in every surrounding with the same arithmetic in which the requests it makes are answered in the same way and the random numbers it draws are the same. In particular: no operator but dropout depends on random numbers; a call that completes with assertions checked gives the same result in a build without them; a call that was refused no memory gives the result it would give with unlimited memory, and conversely.", "quantifier": "every call, all arguments, all pairs of surroundings", "why_tests_cant": "compares executions in all pairs of surroundings", "anchors": ["src/core/*.c", "src/basic/*.c", "src/math/*.c", "src/nn/*.c"]}
{"id": "C53", "title": "The statuses each operator can return", "statement": "Every operator returns only the statuses on its list, whatever its arguments, the memory and the allocator, and every status on the list is returned by some call: create, full: success, alloc-failed; reshape adds dimensions-mismatch; squeeze adds dimensions-mismatch and invalid-argument; slice, duplicate, dropout add not-supported and invalid-argument; the binary operators add not-supported, invalid-argument, type-mismatch; sqrt adds not-supported, math-error; matmul, dot, pooling add not-supported, invalid-argument, dimensions-mismatch; relu, sigmoid, tanh, softmax and conversion add not-supported; batch_norm can return all of these. In particular no operator returns out-of-range or internal-error, and alloc-failed is returned only if a request was refused. The exception are the convolutions: the paths that produce a result end without a return statement, so that the status is whatever the register holds; otherwise they return alloc-failed, not-supported or dimensions-mismatch.", "quantifier": "every call, all arguments, every memory, every allocator", "why_tests_cant": "a caller that dispatches on the status needs to know that the list is complete; tests show only that statuses occur", "anchors": ["src/basic/*.c", "src/math/*.c", "src/nn/*.c", "src/core/status.h:Status"]}
{"id": "C54", "title": "The auto-tests work on the data they announce", "statement": "Filling a buffer for a test, with the natural numbering or with random numbers, completes without undefined behaviour for every element type and every buffer whose length an unsigned int can express: every whole element gets its value (number i the value i+1 reduced into the type, or 0.1 i + 0.1; or an integer from 0 to 10), and nothing outside the buffer changes. A number that is no element type changes nothing. Setting up an input allocates new buffers, fills them completely and touches nothing else. The tensor the test then creates has the announced type and dims and exactly these elements, provided dims times element size is below 4 GiB, which holds for all inputs in the repository; otherwise the buffer gets a wrong length, creation refuses it, and the test, which ignores the status, goes on with an uninitialised handle.", "quantifier": "all element types, dims, buffers, memories", "why_tests_cant": "these are the tests: nothing tests them, and the wrap-around of the length appears only above 4 GiB", "anchors": ["auto_test/basic.cpp:natural_assign", "auto_test/basic.cpp:random_assign", "auto_test/test_code/activation_test.h", "auto_test/test_code/binary_op_test.h", "auto_test/test_code/matmul_test.h", "auto_test/test_code/conv_test.h"]}
{"id": "C55", "title": "An auto-test passes exactly if the results agree", "statement": "The comparison at the end of an auto-test passes if and only if both results have the same dims and the same element type, the user's result is on the device asked for, and all pairs of corresponding elements are close; it reads only elements of the two results and changes nothing. In particular a result identical to the library's passes if and only if its device is right and each of its elements is close to itself.", "quantifier": "all results of all types and dims, every closeness test", "why_tests_cant": "a comparison that stops early or skips elements passes on all correct programs; only a proof shows that it fails on all wrong ones", "anchors": ["auto_test/test_code/activation_test.h", "auto_test/test_code/binary_op_test.h", "auto_test/test_code/matmul_test.h", "auto_test/test_code/conv_test.h"]}
{"id": "C56", "title": "Whole numbers are computed exactly", "statement": "On a machine with IEEE binary32/binary64 arithmetic, tensors whose elements are whole numbers give the exact mathematical result, for every element type, as long as the results and the intermediate sums and products are in the range that the type holds without gaps (the whole range of an integer type, below 2^24 in magnitude for float, below 2^53 for double): add, subtract, multiply, divide without remainder, conversion (so that converting there and back is the identity), full, relu, every case of matrix multiplication, every case of dot, convolution, max and average pooling. Beyond the range this is false: a float tensor already loses 2^24+1.", "quantifier": "all tensors of whole numbers, all element types, all shapes, paddings, strides, dilations, whether or not the compiler fuses multiplications and additions", "why_tests_cant": "the tests compare a few sums with a tolerance; that no sum of whole numbers in the range is ever rounded needs an argument about the floating-point format", "anchors": ["src/math/binary_op.c", "src/math/matmul.c", "src/math/dot.c", "src/basic/cast.c", "src/basic/factories.c", "src/nn/conv.c", "src/nn/pooling.c", "src/nn/relu.c"]}
{"id": "C57", "title": "Special floating-point values", "statement": "On a machine with IEEE arithmetic, for all bit patterns: relu keeps numbers above 0 and plus infinity unchanged and turns everything else, in particular every NaN, both zeros and minus infinity, into +0. Adding and multiplying tensors of equal dims gives the same elements in either order (NaN results not being told apart). For every type but the 64-bit integers a scalar operand of dot that is not a NaN multiplies unchanged, although it passes through double. For these types every output of max pooling is an element of its window that no element of the window exceeds, with NaNs skipped, if the window has an element above 0, and is 0 otherwise.", "quantifier": "all tensors of all element types, all bit patterns including NaN, infinity, -0, subnormal numbers", "why_tests_cant": "tests use a few ordinary numbers; a NaN or -0 in the input is exactly the case they leave out", "anchors": ["src/nn/relu.c", "src/math/binary_op.c", "src/math/dot.c", "src/nn/pooling.c"]}
{"id": "C58", "title": "Square roots of whole numbers", "statement": "On a machine with IEEE arithmetic, the square root of a tensor of an integer type with elements from 0 to 2^52+2^27-1 (hence of any 8, 16 or 32-bit type without negative elements) is for every element n the whole number r with r*r <= n < (r+1)*(r+1), never one off. Squares of whole numbers have an exact root in every type, below 2^53. The bound is sharp: the int64_t element 2^52+2^27 gives a root whose square is larger than the element.", "quantifier": "all tensors of all integer types with elements in the range; all tensors of squares", "why_tests_cant": "the computation goes through a rounded double square root; whether it is ever one off is a question about all numbers and the bound is not visible in any sample", "anchors": ["src/math/sqrt.c"]}
{"id": "C59", "title": "Sigmoid gives numbers from 0 to 1 and keeps order", "statement": "On a machine with IEEE arithmetic and an exponential function that is never negative and turns a NaN into a NaN, sigmoid of a float or double tensor gives for every element that is not a NaN a number from 0 to 1, however large the element and also for infinities, and a NaN for a NaN. If the exponential function does not decrease, neither does sigmoid: a smaller element never gets a larger result.", "quantifier": "all float and double tensors, all bit patterns, all exponential functions with the stated properties", "why_tests_cant": "tests look at a handful of numbers near 0; that rounding, overflow of exp and narrowing to float never push a result above 1 or swap two neighbouring results is a statement about all bit patterns", "anchors": ["src/nn/sigmoid.c"]}
{"id": "C60", "title": "Tanh and softmax stay in their ranges", "statement": "On a machine with IEEE arithmetic, tanh of a float or double tensor without NaN gives numbers from -1 to 1, with tanh(-x) = -tanh(x) bit by bit, and softmax gives numbers from 0 to 1 in which a smaller element of a line never gets a larger share, for all elements, however large.", "quantifier": "all float and double tensors without NaN, all axes, all exponential functions with the properties of C59", "why_tests_cant": "the overflow of exp, from 89 on for softmax of float and 710 on otherwise, is outside the values that tests use", "anchors": ["src/nn/tanh.c", "src/nn/softmax.c"]}
{"id": "C61", "title": "Computing elements and selecting elements can be exchanged", "statement": "Relu, sigmoid, tanh, square root and cast, and add, sub, mul and div of tensors of the same shape, commute with reshape, squeeze, slice and duplicate: when all calls succeed (and they do if no allocation fails), computing first and then selecting gives the same tensor - element type, device, dims and every byte of the data - as selecting first and then computing. A slice of a slice is the single slice whose begin, size and step are composed axis by axis, and every one of these calls gives the same for a copy of a tensor as for the tensor.", "quantifier": "all tensors of all element types, ranks and shapes, all values, all requests that the selecting call accepts, all memories", "why_tests_cant": "the tests check each operator by itself on a few tensors; that two operators can be exchanged is a relation between four calls for all shapes, requests and values", "anchors": ["src/math/binary_op.c","src/math/sqrt.c", "src/nn/relu.c", "src/nn/sigmoid.c", "src/nn/tanh.c", "src/basic/reshape.c", "src/basic/squeeze.c", "src/basic/slice.c", "src/basic/duplicate.c", "src/basic/cast.c"]}
{"id": "C62", "title": "Samples of a batch are processed independently", "statement": "The result for a sample does not depend on the other samples of the batch: for max and average pooling, convolution, batch normalisation, softmax along an axis other than the first, and the rows of a matrix product, processing samples selected by a slice of the first axis gives the same tensor, byte for byte, as selecting these samples from the result of processing the whole batch.", "quantifier": "all batches, all selections by begin, size and step, all parameters of the operators and all values for which the operator is defined, all memories", "why_tests_cant": "the tests use batches of one or two samples and compare with fixed numbers; a wrong stride between samples or an accumulator that is not reset shows only in the relation between results for different batches", "anchors": ["src/nn/pooling.c", "src/nn/conv.c", "src/nn/batch_norm.c", "src/nn/softmax.c", "src/math/matmul.c", "src/basic/slice.c"]}
{"id": "C63", "title": "Calculations with integer tensors obey the laws of arithmetic", "statement": "On tensors of an integer element type, any two ways of calculating the same polynomial with add, sub and mul and with constants made by full give tensors with the same type, device, dims and data, as long as C defines every operation on the way: (x+y)-y is x, x*(y+z) is x*y+x*z, x*2 is x+x - also where intermediate results wrap around. For int8, uint8, int16, uint32 and uint64 every sum, difference and product is defined. Dividing a product that is in range by a factor that is not 0 gives back the other factor.", "quantifier": "all polynomials, all expressions of them, all shapes, all elements for which the operations are defined, all memories; if a call fails the claim is about the calls that succeed, and without allocation failures all succeed", "why_tests_cant": "the tests apply one operator to one pair of small tensors; relations between results of different sequences of calls, for all values and with wrap-around, cannot be enumerated", "anchors": ["src/math/binary_op.c", "src/basic/factories.c"]}
{"id": "C64", "title": "Neutral elements and exact laws of tensor arithmetic on IEEE machines", "statement": "On machines with IEEE arithmetic and for all ten element types: adding or subtracting a tensor of zeros and multiplying or dividing by a tensor of ones, made by full, gives back the tensor bit for bit (no NaN; for the sum no minus zero); a tensor minus itself is full of zeros (finite elements) and divided by itself full of ones (finite, not zero); twice a tensor is the tensor plus itself; dividing float and double tensors by 2 is multiplying by 0.5; operands of sums and products can be exchanged. Each law holds for results of earlier calculations as well as for given tensors.", "quantifier": "all element types, shapes and elements named in the statement including subnormal numbers and infinities, all earlier calculations, all memories", "why_tests_cant": "a float has 2^32 values and the tests use a few; whether rounding ever changes a result that should be exact, for instance for subnormal numbers, needs a proof about the arithmetic", "anchors": ["src/math/binary_op.c", "src/basic/factories.c", "src/core/types.c"]}
{"id": "C65", "title": "Matrix products of integer matrices obey the laws of matrix algebra", "statement": "On matrices of an integer element type, any two calculations with matmul, dot, add, sub and mul that are equal for matrices of exact whole numbers give matrices with the same type, device, dims and data, as long as C defines every operation on the way: (A B) C is A (B C), A (B + C) is A B + A C, (A - B) C is A C - B C, with matmul and dot interchangeable - also where sums and products wrap around. For int8, uint8, int16, uint32 and uint64 every operation is defined.", "quantifier": "all calculations (trees of calls), all matrix dims that fit, all elements for which the operations are defined, all memories; if a call fails the claim is about the calls that succeed, and without allocation failures all succeed", "why_tests_cant": "the tests compare one product of two small matrices with another library; relations between results of different sequences of calls, for all dims and values and with wrap-around, cannot be enumerated", "anchors": ["src/math/matmul.c", "src/math/dot.c", "src/math/binary_op.c"]}
{"id": "C66", "title": "Products with the identity and with permutation matrices are exact", "statement": "On machines with IEEE arithmetic and for all ten element types: the product (matmul or dot) with the identity matrix on either side gives back the matrix bit for bit; if each column of the second matrix has one 1 and zeros elsewhere, the product consists of the selected columns of the first, and likewise for rows if each row of the first matrix has one 1. The zeros may be minus zeros; the other matrix must have no infinities, NaN or minus zeros.", "quantifier": "all element types, all dims that fit, all finite elements including subnormal and largest numbers, all selections (permutations, repetitions, omissions), results of earlier calculations as well as given matrices, all memories, whether or not the compiler fuses multiplications and additions", "why_tests_cant": "selections, dims and float values cannot be enumerated; whether accumulating many zero products ever changes the selected element needs a proof about the arithmetic", "anchors": ["src/math/matmul.c", "src/math/dot.c"]}
{"id": "C67", "title": "The auto-test objects hold what they were given", "statement": "An auto-test Unary_Input, Binary_Input or Conv_Input built from buffers has exactly the ranks, dims, element types, devices, data, lengths, stride, padding, dilation and groups given; one built from vectors has arrays of its own with the given dims (as many as the rank) and, for Conv_Input, one entry of stride, padding and dilation per spatial axis; default-built objects are empty (one group). A copy and the target of an assignment have all parts of the source; a move passes all parts on and leaves the source without buffers; set_data changes only the data and its length. No existing buffer is modified by construction.", "quantifier": "every argument list and every memory", "why_tests_cant": "a test sees a few argument lists, and most of them have equal values in places that could be exchanged", "anchors": ["auto_test/sample.h:Unary_Input", "auto_test/sample.h:Binary_Input", "auto_test/test_code/conv_test.h:Conv_Input"]}
{"id": "C68", "title": "Parameters that change nothing", "statement": "Some parameters make an operation return its input: a slice that takes all positions of every axis with step 1; a reshape to the dims the tensor has; a squeeze of a tensor without dims of length 1, whatever axes are named; dropout with a rate below one percent (all elements kept, whatever the random numbers). On machines with IEEE arithmetic also: average pooling with windows of one element (max pooling with such windows does the same as relu); convolution with one-element filters forming the identity matrix; batch normalisation with scales and variances 1, biases and means 0 and epsilon 0. A convolution whose filters each have a single one copies the selected input channels, shifted to the position of the one, with zeros from the padding. Softmax along an axis of length 1 gives ones unless an exponential is zero or infinite. All results are exact, without rounding. Minus zeros and NaNs are excluded where sums are formed, infinities in convolution.", "quantifier": "all dims that fit, all element values of the types the operation supports, all window geometries, all selections of channels and positions, all random numbers, all memories", "why_tests_cant": "dims, filters and element values cannot be enumerated; that accumulating zeros, dividing by a root of 1 and converting to double and back never changes a value needs a proof about the arithmetic", "anchors": ["src/basic/slice.c", "src/basic/reshape.c", "src/basic/squeeze.c", "src/nn/dropout.c", "src/nn/pooling.c", "src/nn/conv.c", "src/nn/batch_norm.c", "src/nn/softmax.c"]}
{"id": "C69", "title": "Casts one after the other", "statement": "A sequence of casts depends only on the conversions of the single elements: two sequences from one tensor that end with the same type give equal tensors if they convert every element to the same value. Between integer types, a sequence whose intermediate types are all at least as large as the last gives what one cast to the last type gives, also where elements wrap around; ending with the type of the input, it gives the input back. A cast to a smaller integer type and back gives the input back exactly if all elements are in the range of the smaller type - or, for an unsigned input and a signed smaller type, differ from that range by the power of two at which the larger type wraps around. On machines with IEEE arithmetic: any two sequences with the same end agree on whole numbers that all types on the way hold exactly (minus zero excluded); going through double from any type but the 64-bit integers is the same as a direct cast wherever that is defined (integers must be in the range of an integer target); and every tensor without NaN comes back from double.", "quantifier": "all sequences of casts of any length, all dims that fit, all element values, all memories; IEEE arithmetic where floating types are involved", "why_tests_cant": "sequences and element values cannot be enumerated; that two roundings give what one gives needs a proof about the arithmetic, and wrap-around makes some out-of-range elements come back and others not", "anchors": ["src/basic/cast.c", "src/core/types.c"]}
{"id": "C70", "title": "Programs may exchange the allocator", "statement": "The library returns to the installed allocator only memory it received from it, and to free only memory it received from malloc: a call of any operator or a conversion gives the same status, the same handle and the same effects whatever allocator the operands came from and whatever allocator is installed, and the whole result comes from the allocator that is installed during the call. So a program that installs another allocator before any of its calls, and destroys each tensor with the allocator with which it was received, behaves exactly like the same program with one allocator: same statuses, same handles, same values; each tensor it holds is entirely in memory of the allocator it was received with; and destroying the held tensors, each with its allocator, gives everything back. Destroying a tensor while another allocator is installed hands that allocator memory it did not provide: undefined behaviour.", "quantifier": "all sequences of calls of any length, all assignments of allocators to calls, all arguments, all memories, all failures of allocations", "why_tests_cant": "tests run with malloc and free behind both functions, where mixing allocators goes unnoticed; assignments of allocators to calls cannot be enumerated", "anchors": ["src/core/allocator.h", "src/core/allocator.c", "src/core/tensor.c", "src/core/storage.c", "src/core/shape.c"]}
{"id": "C71", "title": "Calls never write to memory that existed before, not even for a moment", "statement": "A call of any operator, or a conversion, that completes does so in the same way when any part of the memory that existed before the call (the operands included) is read-only, so that any write to it, even one that is undone before the call returns, would be undefined behaviour: same status, same handle, same memory. The converse holds too: what completes with read-only operands completes with writable ones. So operands may lie in read-only memory and may be shared by several calls at a time. The same holds for whole programs that set elements of and destroy only tensors they have created themselves. Setting an element of a tensor whose data are read-only, and destroying a read-only tensor, is undefined behaviour.", "quantifier": "every operator, all arguments (also ill-formed ones), every choice of read-only blocks, every allocator behaviour, all sequences of calls", "why_tests_cant": "a test sees memory only after the call has returned: a write that is undone, or a write of the value already there, is invisible to it", "anchors": ["src/core/*.c", "src/basic/*.c", "src/math/*.c", "src/nn/*.c"]}
{"id": "C72", "title": "Axes that an operator treats alike can be merged", "statement": "Axes that an operator treats alike can be merged by reshape before the call and split again after it, and the result is the same tensor, bit for bit: softmax along an axis, and batch normalisation, of a tensor of any rank give what the same call gives on the tensor of rank three whose outer and inner axes are merged; pooling treats the channels of all samples as samples of one channel; a stack of matrices times one matrix, or times a vector, is the tall matrix of all their rows times it. All calls succeed if no allocation fails.", "quantifier": "all dtypes, all ranks, dims and elements, all windows, all floating-point behaviours, all memories, all failures of allocations", "why_tests_cant": "the property relates two different computations on all shapes and all values; the accumulation order must agree too, or floating-point results differ in the last bit only for some inputs", "anchors": ["src/nn/softmax.c", "src/nn/batch_norm.c", "src/nn/pooling.c", "src/math/matmul.c", "src/basic/reshape.c"]}
{"id": "C73", "title": "Where operators overlap they agree", "statement": "Where two operators, or two uses of one operator, are meant to calculate the same thing, they give the same tensor, bit for bit. Pooling and convolution along some axes give what they give along one more axis of length 1, wherever that axis is inserted. Convolution of samples with a filter as large as the samples is a matrix product: samples as a matrix times one filter as a vector (whatever the arithmetic), and filters as a matrix times one sample as a vector (if multiplication commutes, as in IEEE arithmetic); convolution of a sample with filters of one element is the matrix of the filters times the matrix of the channels. dot and matmul agree on two vectors, on two matrices, and on a matrix or a stack of matrices and a vector. Softmax of a vector over everything is softmax along its only axis.", "quantifier": "all dims, windows and elements (convolution: float), all strides and dilations, all floating-point behaviours (where not stated otherwise), all memories", "why_tests_cant": "the property relates different code paths on all shapes and values; a difference in the order of accumulation or in index arithmetic shows only for some shapes and some values", "anchors": ["src/nn/conv.c", "src/nn/pooling.c", "src/nn/softmax.c", "src/math/matmul.c", "src/math/dot.c", "src/basic/reshape.c"]}
{"id": "C74", "title": "Indices that do not exist are refused exactly in builds with assertions", "statement": "In a build with assertions, aitisa_coords_to_linidx and aitisa_coords_to_offset return the row-major position if len is the rank and every coordinate is within its dim, and stop the program otherwise; aitisa_linidx_to_coords and aitisa_offset_to_coords stop the program for every position outside [0,size). In a build without assertions nothing is refused: any coordinates, also negative ones, give the sum of coordinate times stride, whatever len; a position at or beyond the end is taken modulo the size; a negative position gives the negated coordinates of its absolute value modulo the size; if an axis has length 0, every position divides by zero. aitisa_get_stride of an axis that does not exist is the number of elements, in every build. No call changes memory.", "quantifier": "all tensors, all coordinates (whose weighted sum fits 64 bits, without assertions), all 64-bit positions, all lengths and axes, both kinds of build", "why_tests_cant": "the invalid arguments are unbounded in number, and tests run in one kind of build", "anchors": ["src/basic/index_utils.c:aitisa_get_stride", "src/basic/index_utils.c:aitisa_coords_to_linidx", "src/basic/index_utils.c:aitisa_linidx_to_coords", "src/basic/index_utils.c:aitisa_coords_to_offset", "src/basic/index_utils.c:aitisa_offset_to_coords"]}
{"id": "C75", "title": "Floating-point results are correctly rounded", "statement": "On a machine with IEEE arithmetic, every element that aitisa_add, aitisa_sub, aitisa_mul, aitisa_div (divisor not 0), aitisa_cast to float or double and aitisa_sqrt (no negative element) deliver for float and double tensors of finite numbers is the exact result correctly rounded: no number of the type is nearer to it, of two equally near ones the one whose last bit is 0 is taken, and exact results at or beyond the end of the range give the infinity of their sign. For aitisa_sqrt on float tensors this holds although the root is computed in double and rounded a second time. The error is at most one part in 2^24 (float) or 2^53 (double), or half of the smallest number, and there is only one correctly rounded result.", "quantifier": "all tensors of finite float or double numbers (for casts also of all integer types), all shapes with at most INT_MAX elements where the operator counts with int", "why_tests_cant": "there are 2^64 pairs of floats and 2^128 pairs of doubles; double rounding goes wrong, if at all, for a few operands only", "anchors": ["src/math/binary_op.c", "src/math/sqrt.c:aitisa_sqrt", "src/basic/cast.c:aitisa_cast"]}
{"id": "C76", "title": "Floating-point sums of products are near the exact ones", "statement": "On a machine with IEEE arithmetic, every element that aitisa_matmul (all combinations of vector, matrix and tensor), aitisa_dot (vectors, tensor and vector, tensors) and aitisa_conv deliver for float and double tensors of finite numbers is near the exact sum of products: if it is a number, it differs from the exact sum s of n products by at most ((1+u)^(n+1)-1)*t + n*(1+u)^n*d, where t is the sum of the absolute values of the products, u is 2^-24 (float) or 2^-53 (double) and d the smallest positive number of the type; and it is a number (not infinite, not NaN) whenever t plus this bound is below the end of the range. For up to 2^23 (2^52) products the bound is at most 2*(n+1)*u*t + 2*n*d; if no product is negative, t is the exact sum itself.", "quantifier": "all float and double tensors of finite numbers, all shapes the operators accept (at most INT_MAX elements where they count with int), all allocator behaviours, whether or not the compiler fuses multiplications and additions", "why_tests_cant": "rounding errors accumulate along sums of any length; tests compare a few small products with a tolerance chosen by eye", "anchors": ["src/math/matmul.c", "src/math/dot.c", "src/nn/conv.c"]}
{"id": "C77", "title": "Averages are near the exact ones", "statement": "On a machine with IEEE arithmetic, every element that average pooling delivers for float and double tensors of finite numbers is near the exact average of its window (padding counted as places, K places in all): if it is a number, it differs from the exact average by at most B = ((1+u)^(n+2)-1)*t/K + (n+1)*(1+u)^(n+1)*d/K + d for double, where n is the number of elements in the window, t the sum of their absolute values, u = 2^-53 and d = 2^-1074, and for float by at most B + 2^-24*(t/K+B) + 2^-150; and it is a number (not infinite, not NaN) unless t with the error of the sum reaches the end of the range of double, or t/K + B that of the type. For float and up to 2^26 elements the error is at most 2^-23*t/K + 2^-149, whatever the size of the window.", "quantifier": "all float and double tensors of finite numbers, all window sizes below 2^53, strides, paddings and dilations that the operator accepts, all allocator behaviours", "why_tests_cant": "rounding errors accumulate over windows of any size; tests compare a few small windows", "anchors": ["src/nn/pooling.c"]}
{"id": "C78", "title": "Operators keep the order of their operands despite rounding", "statement": "On a machine with IEEE arithmetic, if no element of a tensor A exceeds the element of a tensor A' at the same position (and none is a NaN), the same holds of the results: relu (all element types), conversions (except from one integer type to another), square roots of elements that are not negative, sigmoid (if exp does not decrease), and max pooling give results in the same order; so do, at every position where neither result is a NaN, A+B and A'+B' if B is below B' as well, A-B and A'-B' if B' is below B, A*B and A'*B for finite B without negative elements, A/B and A'/B for positive finite B, average pooling, and matmul, dot and conv with one factor fixed, finite and without negative elements, provided the machine always or never contracts z+a*b into a fused multiply-add.", "quantifier": "all pairs of tensors of equal shape with elements in order (infinities included), all shapes the operators accept, any accumulation length, all allocator behaviours; float and double for the arithmetic operators, all element types where stated", "why_tests_cant": "a reversal by rounding would appear only for particular neighbouring operands among 2^64 pairs per element and arbitrarily long sums", "anchors": ["src/math/binary_op.c", "src/math/matmul.c", "src/math/dot.c", "src/math/sqrt.c", "src/basic/cast.c", "src/nn/relu.c", "src/nn/sigmoid.c", "src/nn/pooling.c", "src/nn/conv.c"]}
{"id": "C79", "title": "Batch normalisation of floating-point tensors is near the exact one, keeps order, and maps the mean to the bias", "statement": "On a machine with IEEE arithmetic, for float or double tensors whose parameters are finite and whose variance plus epsilon (in the element type) is positive and finite in every channel: let d be the denominator, i.e. the correctly rounded root of the correctly rounded sum of the variance and the rounded epsilon. Each result of batch_norm that is a number differs from scale*((x-mean)/d)+bias by at most (g^4-1)(|scale||x-mean|/d+|bias|) plus a multiple of the smallest number, g = 1+2^-24 (float) or 1+2^-53 (double), which is below 5 parts in 2^24 (2^53) plus (|scale|/d+|scale|+2) smallest numbers; it is a number unless one of the four operations reaches the end of the range; d*d is variance plus epsilon up to four roundings. An element equal to the mean of its channel gives the bias exactly. With scales that are not negative, results rise with the elements of the input (at every position where neither is a NaN).", "quantifier": "all inputs of rank 2 to 5 with both channel positions, within the size limits of C44, all finite parameters, all inputs (for order and the mean: infinities included), all allocator behaviours", "why_tests_cant": "the bound concerns the worst of astronomically many combinations of inputs and parameters; the existing tests compare a handful of results with a tolerance", "anchors": ["src/nn/batch_norm.c", "src/math/binary_op.c", "src/math/sqrt.c", "src/basic/factories.c"]}
{"id": "C80", "title": "Softmax, sigmoid and tanh are accurate relative to the exponentials they use; softmax adds up to 1", "statement": "On a machine with IEEE arithmetic and any exponential function, for float and double tensors. Softmax along an axis (or over all elements, axis -1): in every line of n <= 2^50 elements whose computed exponentials are finite, not negative, and have a positive sum below 2^1023, every result is a number that differs from the exact share e/sum by at most 3n+2 parts in 2^53 of it and half of the smallest double, plus one rounding to float for float tensors; the results of the line add up to 1 with an error of at most 3/2^24 (float, n <= 2^24) or 3(n+1)/2^53 (double). Sigmoid is that close to 1/(1+e) (4 parts in 2^53), e being what exp(-x) returned, below 2^1023, and tanh to (a-b)/(a+b) (5 parts), a and b being what exp(x) and exp(-x) returned, even where they cancel.", "quantifier": "all shapes, axes and elements, all exponential functions, all allocator behaviours; no restriction on how small the exponentials are", "why_tests_cant": "the error depends on the line length and on the order of the additions, with worst cases among more inputs than can be enumerated; tests compare a few results with a tolerance", "anchors": ["src/nn/softmax.c", "src/nn/sigmoid.c", "src/nn/tanh.c"]}
{"id": "C81", "title": "Max pooling, relu, square roots and conversion to double may be exchanged; two max poolings are one", "statement": "On a machine with IEEE arithmetic, to the last bit. (a) relu before or after max pooling makes no difference: pooling the relu of a tensor, the relu of the pooled tensor and the pooled tensor are equal, for every element type and all data, NaN included, as long as the maxima are representable. (b) Converting to double and then max pooling gives what max pooling and then converting gives. (c) Max pooling twice, the second time without padding or dilation, gives what one max pooling with windows of length (k'-1)*s+k and stride s*s' gives, if the first is not dilated and its stride does not exceed its window (any padding); in (b) and (c) 64-bit integers must be below 2^53 in absolute value. (d) Max pooling the square roots gives the square roots of the maxima, if no element is negative (NaN allowed) and integers are below 2^52. In each case, if all calls succeed the two results are the same tensor in separate memory, and all succeed if no allocation fails.", "quantifier": "all shapes with one to three pooled axes, all windows, strides and paddings that fit, all element types and data, all allocator behaviours", "why_tests_cant": "the laws relate chains of calls for every geometry and every content, including NaN, negative zero and rows of the input that windows skip; tests fix a few geometries and compare with precomputed numbers", "anchors": ["src/nn/pooling.c", "src/nn/relu.c", "src/basic/cast.c", "src/math/sqrt.c"]}
{"id": "C82", "title": "Padding is a border of zeros", "statement": "On a machine with IEEE arithmetic, pooling or convolving with padding p gives what the same call without padding gives on the tensor with an explicit border of p zeros on each side of every pooled axis. Max pooling and average pooling give the same elements to the last bit, for every element type in which the results are representable and all data, NaN, infinities and negative zeros included (the divisor of the average counts the padding). Convolution of float tensors with finite filters gives the same elements to the last bit if multiply-adds are not fused; if some are, the same numbers (a zero may differ in sign, and an example shows that it can).", "quantifier": "all shapes, windows, strides, paddings and dilations that fit, all data, all allocator behaviours, every choice of which multiply-adds are fused", "why_tests_cant": "the code never stores the border, it skips positions by index arithmetic; equality with the explicit border for every geometry and every content, including contents that a further zero term could change (negative zeros, NaN payloads), is beyond a list of samples", "anchors": ["src/nn/pooling.c", "src/nn/conv.c"]}
{"id": "C83", "title": "A convolution is a product of matrices", "statement": "On a machine with IEEE arithmetic whose products do not depend on the order of the factors, convolving float samples gives the elements, in the same order, that the matrix product gives for the filters (one in each row of a matrix, which is their row-major storage unchanged) times the matrices of patches: column n of the patch matrix of a sample holds what lies under the filter at its n-th position, channel by channel, with zeros on the padding. The elements agree to the last bit if there is no padding, or if multiply-adds are not fused and the filters are finite; with padding, finite filters and fused multiply-adds the numbers agree (a zero may differ in sign).", "quantifier": "all batch sizes, channel and filter counts, ranks, filter shapes, strides, paddings and dilations that fit (with sizes the matrix product can index), all data, all allocator behaviours, every choice of which multiply-adds are fused", "why_tests_cant": "relates two operators with different index arithmetic (nested windows against batched matrices with broadcasting); a slip in channel order, filter order or window origin may be invisible on symmetric samples, and rounding makes the order of the terms matter", "anchors": ["src/nn/conv.c", "src/math/matmul.c"]}
{"id": "C84", "title": "A tile of the result is the result of a tile", "statement": "Pooling and convolution without padding, and the matrix product, may be computed tile by tile: a slice of the result (any samples, channels or filters, and window positions at regular steps) equals, to the last bit, what the same operator gives on the slice of the input from the start of the first wanted window to the end of the last, with the strides multiplied by the steps (convolution: with the slice of the filters; matrix product: on the wanted rows and the wanted columns). Whenever the calls succeed the tensors are the same, and if no allocation fails they do.", "quantifier": "all shapes, windows, strides, dilations and slices (begin, number, step) that fit, all data and element types, every arithmetic, all allocator behaviours", "why_tests_cant": "off-by-one errors in window origin, slice extent or stride appear only for particular combinations of begin, step, stride and dilation; equality to the last bit needs the terms in the same order for all of them", "anchors": ["src/nn/pooling.c", "src/nn/conv.c", "src/math/matmul.c", "src/basic/slice.c"]}
{"id": "C85", "title": "Changing signs changes signs only", "statement": "On the usual machines (binary32, binary64), if all elements of a float or double operand are replaced by the opposite numbers, the results are replaced by the opposite numbers and nothing else changes (zeros may have either sign, NaN stays NaN): sums and differences when both operands are, products when one factor is, quotients when the dividend or the divisor is, matrix products, dot products and convolutions when one operand is, average pooling, conversions between float and double, and tanh whatever exp is. Exchanging the operands of a difference gives the opposite result. Subtracting a tensor from zeros, or multiplying it by minus one, gives exactly the opposite elements.", "quantifier": "all shapes of every operator, all float and double elements including infinities, NaN and subnormal numbers, machines that round z + a * b always once or always twice", "why_tests_cant": "the claim is exact equality for every bit pattern and every length of sum; an arithmetic that rounds differently for the two signs differs only on ties and overflow", "anchors": ["src/math/binary_op.c", "src/math/matmul.c", "src/math/dot.c", "src/nn/conv.c", "src/nn/pooling.c", "src/nn/tanh.c", "src/basic/cast.c"]}
{"id": "C86", "title": "Multiplying the data by powers of two loses nothing", "statement": "On the usual machines without fused multiply-add (binary32, binary64), if all elements of the operands are multiplied by powers of two, every result is multiplied by a power of two exactly, to the last bit, although every single result is rounded: sums and differences when both operands are multiplied by 2^k, products of tensors element by element, matrix products, dot products and convolutions by 2^(i+j) when the operands are by 2^i and 2^j, quotients when the dividend is, conversions between float and double, average pooling, max pooling and relu; square roots are multiplied by 2^k when the elements are by 4^k. Exceptions: a result beyond the range; an exact product, quotient or converted number below the smallest normal number; an average not above it. Sums, differences, maxima and relu have no lower limit, square roots no limit at all.", "quantifier": "all shapes of every operator, all finite float and double elements including subnormal numbers, all exponents k, i, j (read from the larger data to the smaller for negative ones)", "why_tests_cant": "the claim is exact equality for every bit pattern, every length of sum and every exponent; the limits are reached only by numbers near the ends of the range", "anchors": ["src/math/binary_op.c", "src/math/matmul.c", "src/math/dot.c", "src/nn/conv.c", "src/nn/pooling.c", "src/nn/relu.c", "src/basic/cast.c", "src/math/sqrt.c"]}
{"id": "C87", "title": "Sums, differences and quotients tell numbers apart, and close numbers are subtracted exactly", "statement": "For float and double tensors of finite elements, although every result is rounded: each element of aitisa_sub is zero, positive or negative exactly if the exact difference is, so it is zero only where the elements are equal; the difference is exact wherever neither element is more than twice the other, and wherever it is smaller in magnitude than twice the smallest normal number. aitisa_add behaves likewise with the second operand negated (zero only for opposite elements). Each element of aitisa_div with a nonzero divisor is 1 exactly if the two elements are equal.", "quantifier": "all CPU tensors of equal dims with float or double elements and at most INT_MAX elements, all element values that are numbers (subnormal ones included), any machine with IEEE arithmetic, fused or not, any allocator behaviour", "why_tests_cant": "there are 2^64 (2^128) pairs of elements, and the claims are sharp: they rest on gradual underflow and on the gap between neighbouring numbers, so tests that sample pairs do not meet the pairs a flush-to-zero or reciprocal-multiply kernel gets wrong", "anchors": ["src/math/binary_op.c"]}
{"id": "C88", "title": "The square root of a square is the number, and close differences can be undone", "statement": "For float and double tensors, although every step is rounded: calling aitisa_mul on a tensor with itself and aitisa_sqrt on the result gives, for every element, exactly the element without its sign, provided its square is 0 or neither tiny (below the smallest normal number) nor beyond the range. Calling aitisa_sub with a second tensor and then aitisa_add with the same one gives back exactly the first tensor's numbers wherever neither element is more than twice the other or they differ by less than twice the smallest normal number; aitisa_add followed by aitisa_sub likewise with the second operand negated.", "quantifier": "all CPU tensors (of equal dims) with float or double elements and at most INT_MAX elements, all numbers satisfying the stated conditions, any machine with IEEE arithmetic, fused or not, any allocator behaviour: whenever both calls succeed, and they do if no allocation fails", "why_tests_cant": "there are 2^32 (2^64) elements and the root of a float is rounded twice; an error of one unit in the last place on a few mantissas, e.g. next to powers of two, is not met by sampled tests and is hidden by tolerances", "anchors": ["src/math/binary_op.c", "src/math/sqrt.c"]}
{"id": "C89", "title": "relu splits a tensor into a positive and a negative part without loss", "statement": "For float and double tensors without NaN: let p be aitisa_relu of x, and q be aitisa_relu of aitisa_sub of a tensor of zeros and x. Then aitisa_sub of p and q is x again, bit for bit, except that minus zero becomes zero; and aitisa_add of p and q is x with every sign bit cleared. Subnormal numbers and infinities are included. Integer tensors behave likewise provided the element type holds the opposite of every element (for signed types: no element is the least of the type).", "quantifier": "all CPU tensors of at most INT_MAX elements of any element type, all element values except NaN and integers without an opposite, zeros of either sign in the tensor of zeros, any machine with IEEE arithmetic, fused or not, any allocator behaviour: whenever the four calls succeed, and they do if no allocation fails", "why_tests_cant": "there are 2^32 (2^64) elements, and the claim is about bits; a relu that goes wrong on infinities, subnormal numbers or signed zeros, or a sub that flushes subnormal results, agrees with the right one on the numbers that tests sample and compare within a tolerance", "anchors": ["src/nn/relu.c", "src/math/binary_op.c"]}
{"id": "C90", "title": "The larger and the smaller of two tensors can be computed with relu", "statement": "The API has no elementwise maximum or minimum. For two tensors of whole numbers a and b: aitisa_add of b and aitisa_relu of aitisa_sub of a and b stands everywhere for the larger number, and aitisa_sub of a and that relu for the smaller one, exactly, provided the element type holds the numbers and their differences without gaps.", "quantifier": "all pairs of CPU tensors of equal dims and element type with at most INT_MAX elements, all ten element types, all whole numbers in the range of the type (24 bits for float, 53 for double) whose difference is in it too, any machine with IEEE arithmetic, fused or not, any allocator behaviour: whenever the three calls succeed, and they do if no allocation fails", "why_tests_cant": "the claim is about all pairs of numbers in ten types and about a sequence of calls through three kernels; sampled pairs do not meet the borders of the range, where a wrapped or rounded difference would select the wrong number", "anchors": ["src/math/binary_op.c", "src/nn/relu.c"]}
