# Formal model of aitisa_api: design

Source: `/repo` (C99 library `src/`, C++ helper library `auto_test/`), read as text only.
Model and proofs: Lean 4.33.0, Lake project in `lean/`.

## 1. Trusted base

* Lean's kernel. No axiom is added; the theorems listed in `MANIFEST.json` depend at most on
  `propext`, `Classical.choice` and `Quot.sound`. No `sorry`, `native_decide`, `bv_decide`.
* The hand translation of the C code into `lean/Verif/Model/*.lean` (each definition cites the lines
  it models and says where it simplifies). Nothing is extracted mechanically from the C source.
* The reading of C99 below (LP64, two's complement, 8-bit bytes, little-endian, `int` 32 bits,
  IEEE-754 floating types for the shape computations done in `double`).
* The specifications in `lean/Verif/Spec/*.lean`.

## 2. The model

### 2.1 Execution
`M α = Env → Mem → Res α`. A run ends as

* `ok a m` – normal return with final memory `m`;
* `ub u` – undefined behaviour, with its kind: null dereference, use after free, out of bounds, read
  of uninitialised memory, signed overflow, division by zero, unrepresentable float→int conversion,
  dereference of an indeterminate pointer, bad free, end of a non-void function whose value is used,
  shift of an access outside a table, ...;
* `abort` – a failed `assert` (asserts are on in the default Debug build; the flag is in `Env`);
* `fuel` – the bound given to the model of a `while` loop ran out. The theorems prove that it does
  not happen, i.e. termination.

`Env` contains what the C program does not control: the outcome of every allocation request
(`allocOk tick size`: any request can fail, including size 0; separately `mallocOk` for the direct
`malloc` calls in `binary_op.c`), the random stream, whether asserts are compiled in, and the
floating-point operations on raw bit patterns (`FloatOps`). Every theorem is for all `Env` unless it
says otherwise, hence for every allocator schedule, random sequence and floating-point unit.

### 2.2 Memory
A finite map from block ids to blocks; ids are never reused. A block is a tensor descriptor, a storage
descriptor, an `int64_t` array, a raw byte array (element data; each byte is initialised or not) or
scratch memory. Pointers are null, a block (base address), or indeterminate. `free` removes the block,
so use-after-free, double free and leaks are visible. Blocks record where they came from (`Origin`):
the installed allocator (`raw_alloc`), another allocator, `malloc`, or none of these. `raw_dealloc` takes back only
blocks of the installed allocator and `free` only blocks of `malloc`; anything else is undefined behaviour. This is
stricter than the default set-up, in which `raw_alloc` is `malloc`. A block may also be read-only (`const`): writing to it and
releasing it are undefined behaviour. Writes to temporary arrays whose contents the model keeps in local lists (`touch`) are not checked for this.

Element data are *bytes*; element accesses encode/decode the ten element types at `i*sizeof(type)`
with a bounds check against the block, so a type-confused access or an access past the end is visible.

### 2.3 C arithmetic
Integers are unbounded `Int` with explicit range checks: `int`/`int64_t` overflow is `ub`; unsigned
arithmetic wraps; 8/16-bit operands are promoted to `int`; conversions to integer types wrap
(implementation-defined, as gcc/clang do) and conversions from floating point outside the range are
`ub`. Loop counters of type `int` over an `int64_t` bound are `ub` when the bound exceeds `INT_MAX`.

### 2.4 Simplifications (all stated again at the definitions)
* Caller supplied C arrays (dims, axes, begin/size/step...) are passed by value as lists whose cells
  can be uninitialised; reading outside them is `ub`. The C code never writes to them.
* Scratch arrays: allocation and freeing happen in the modelled heap (so failures, leaks, null
  dereferences are modelled), their contents are local lists with bounds and initialisation checks.
* Output parameters `Tensor *output` are modelled by passing the old handle value and returning the
  new one.
* Floating-point element operations are abstract functions on bit patterns (`FloatOps`), so theorems
  about values say *which* operations are applied to *which* operands in *which* order; no algebraic
  law of floating point is assumed, except where a theorem names the class `Machine` or its member `ieee` (`Spec/Ieee.lean`: binary32 and binary64
  with rounding to nearest even, as functions on bit patterns; invalid operations give one canonical NaN, whereas hardware may
  propagate the payload of an operand; the exponential function is an approximation: theorems
  are about every function with the properties `ExpOK`, `ExpMono` of `Spec/Range.lean`, which the approximation has). The `double` computations of shapes (slice, pooling) are instead
  modelled exactly: round-to-nearest-even binary64 over the rationals.
* Narrowing `double`→`float` follows IEC 60559 (overflow gives infinity), not the stricter C99 text.
* Device ids, logging macros, threads (the library has a global allocator and no locks; C71 shows that
  calls do not write to shared operands), and the CUDA device are not modelled beyond the stored `device` field.
* Alignment and strict aliasing are not modelled.
* The C++ objects of `auto_test/sample.*` and `Conv_Input` are values; their buffers and counters are blocks. `new`/`delete` and
  the installed allocator use one heap (the code mixes them), `delete[]` ignores the element type, a failing `new` ends the run (`abort`).
  Templates, the googletest framework and the destruction of the test object inside `get_binary_sample` are not modelled. Of the
  fixtures the set-up of one input (`Model/Harness.lean`) and the comparison of two results are modelled; the random engine gives arbitrary
  numbers; the assertion on a pair of elements is a parameter (which overload `abs` resolves to is therefore not decided); timing and
  printing are left out.
* `a += b * c` on floating elements (`matmul`, `dot`, `conv`, and `i * 0.1 + 0.1` of the tests) is one function of `FloatOps` (`mac32`,
  `mac64`), since a compiler may contract it to a fused multiply-add. `Machine fp` allows both, even mixed by value: each `a + b * c` is
  either rounded twice or once. It is one function, that is, all these places are assumed to be compiled alike; this matters only where
  results of different operators are compared bit by bit (C72, C73). `batch_norm` uses separate tensor operations and has nothing
  to contract; in `in + 2.0 * padding` (`pooling.c`) the product is exact, so contraction makes no difference.
* A function that ends without `return` (`aitisa_conv_float`, `aitisa_conv`) has a fall-through value
  (`Fall`): `none` is the C standard (using the value is undefined behaviour), `some st` is whatever
  status a compiler leaves in the register. Properties of the output are proved for every `st`.
* The first use of an unchecked temporary array is modelled as a dereference at the point of use even
  when the loop using it might run zero times (`touch`), so a failed allocation of it always counts as a
  null dereference. This is pessimistic: the code may survive when the array is not used.
* The releases of the temporaries of `batch_norm.c` act on the modelled heap; the arrays of tensor handles
  it keeps per channel are lists in the model, each access of which also touches the block of the array.
  Its loops with `uint32_t`/`int` counters are bounded loops, with the wrap-around of the `uint32_t`
  offsets modelled.
* Dims that pass through `int` variables in `matmul.c`, `dot.c`, `conv.c` are bounded by `INT_MAX` in
  the theorems (stated as hypotheses).

### 2.5 Files
* `Verif/Model/*` – the code; `Verif/Spec/*` – small independent specifications;
  `Verif/Proof/*` – lemmas; `Verif/Props/*` – one theorem group per property, each with a concrete
  non-trivial instance of its hypotheses.
* `Verif/Test/*` – tests of the model, not proofs: the 43 unit tests of `/repo/test/*.cpp` replayed in the model with `ieee`
  arithmetic, with the expectations of the C++ code. They say that model and code agree on these inputs.

## 3. Properties: what is modelled and how it is proved

(`NEG` marks a claim that the code violates: the negation is proved with a concrete witness, and the
part that does hold is proved as a theorem named `..._partial` or as a separate conditional theorem.)

| id | model | proof |
|----|-------|-------|
| C01 | `create`, shape, storage, `size_of_dims` | symbolic execution over every allocation outcome; loop invariants for dims copy and product |
| C02 | same, with caller data | same, plus the arithmetic acceptance condition |
| C03 | `resolve` | execution lemma on well-formed tensors |
| C04 | `destroy` | execution lemma; memory extensionality after create;destroy |
| C05 | `create` failure paths | NEG witness; exactly what is leaked and exactly when nothing is |
| C06, C07 | every operator | proved for all arguments at once by an ownership logic (`Proof/Quiet.lean`: code that neither allocates nor releases; `Proof/Own.lean`: triples over lists of owned blocks), independently of the functional theorems; `Spec/Frame.lean` enumerates the operators (`Call`) |
| C08, C09 | `types.c` accessors, `set_item` | byte encoding round trip, list update lemmas |
| C10 | `full` | loop invariant over the fill loop |
| C11-C13 | `cast` | loop invariant; integer wrap lemmas |
| C14-C16 | `index_utils.c` | induction on rank, mixed-radix arithmetic |
| C17 | `broadcast_array` | loop invariant against a recursive specification on reversed shapes |
| C18 | `reshape` | execution lemma |
| C19, C20 | `squeeze` | loop invariants; NEG witnesses |
| C21-C23 | `slice` | odometer invariant (record = offset of current coordinate); rational rounding model of binary64 |
| C24, C25 | `duplicate` | instance of slice; NEG witnesses |
| C26-C29 | `binary_op.c` | loop invariant, C integer semantics |
| C30 | `sqrt` | loop invariant with early exit |
| C31-C33 | `matmul.c` | kernel loop = fold; broadcast batch offsets by induction; second operand read as the dtype of the first (`ReadsAs`); exact conditions for overruns |
| C34 | `dot.c` | per-case loop invariants over slices (`Fill`: cells written so far); NEG witnesses (empty inner dim, scalar through `double`) |
| C35-C37 | `relu`, `sigmoid`, `tanh`, `softmax` | loop invariants |
| C38, C39 | `pooling.c` | termination measure of the window odometer; NEG witness; `Spec/Maxima.lean` (`Maximum`), `Props/Maxima.lean`: on IEEE machines exactly which windows give their maximum |
| C40-C42 | `conv.c` | nested loop invariants; NEG for the missing return |
| C43 | `dropout` | loop invariant for every random stream |
| C44, C45 | `batch_norm.c` | composition of slice/squeeze/arith specifications over a pool of temporaries (`Pool`, `Runs`), transport loop invariant; NEG for empty dims |
| C46 | histories of API calls on tensors obtained from the API | `Spec/Meets.lean` states for every operator the preconditions and the result in terms of tensor values (`Meets`, `Denied`, `Allowed`); induction over adaptive histories with the invariant `Live` (handles denote their tensors, pairwise disjoint), one functional theorem per kind of call; failing allocators by transport (C52): a call that was refused nothing behaves as with unlimited memory; NEG for careless operators that are refused a request |
| C47 | histories of calls with arbitrary arguments | the ownership logic of C06/C07, by induction over histories |
| C48 | all operators under failing allocators | counting of refused requests (`Srv`), composed with the functional theorems; NEG witness for every careless operator; `Props/Crash.lean`, `Props/CrashNorm.lean`: binary operators, slice, duplicate, dropout, pooling, convolution, products with a tensor of rank 3 or more, dot with a scalar and batch normalisation crash on all valid arguments if one particular request is refused |
| C49 | dispatch macro; table of kernels | every operator run symbolically with an unknown code: refused where the dispatch macro is used, undefined behaviour where the code indexes a table (full, binary operators, matmul, dot, batch normalisation) |
| C50 | `auto_test/sample.*` reference counting | one generic theorem over a class given by its operations (`Lawful`), invariant: counter = number of owners, objects share all blocks or none; instances `Unary_Input`, `Binary_Input`, `Result`; wrong uses as `_violated` theorems |
| C51, C52 | every function of the library | a locality logic (`Proof/Local.lean`): every primitive gives the same result when blocks are added to memory and when the surroundings change in anything the primitive did not use; composed by a tactic over all functions (`Proof/LocalOps.lean`) |
| C53 | every operator | a logic for the statuses of completed runs (`Proof/Gives.lean`), composed by a tactic over all functions; `dot` needs in addition that no step of it changes the dtype of an existing tensor; exactness by a call for every entry of the table; the last half of C48 by transport along C52 |
| C54, C55 | `auto_test/basic.cpp`, set-up and comparison code of the fixtures in `auto_test/test_code` | loop invariants: a buffer is a list of elements followed by untouched bytes (`Filled`); the comparison finds the first difference; composed with the constructor of the input (C50) and the creation of a tensor that adopts the buffer (C02) |
| C56 | operators with IEEE arithmetic (`Machine`) | the operations of a format on whole numbers below `2^p` are exact (`Proof/IeeeVal.lean`), inserted into the theorems about values (C18, C32, C34, C36, C38) |
| C57 | relu, binary operators, dot, max pooling with IEEE arithmetic (`Machine`) | order and NaN behaviour of the comparison, symmetry of addition and multiplication, narrowing after widening is the identity (`Proof/IeeeVal.lean`, `Proof/IeeeOrd.lean`) |
| C58 | sqrt with IEEE arithmetic (`Machine`) | the rounded root of `n` lies in `[s, s+1)` for the integer root `s`: the distance of `n` to the next square against half a unit in the last place (`Proof/IeeeSqrt.lean`) |
| C59 | sigmoid with IEEE arithmetic (`Machine`), any `exp` with `ExpOK` | every operation is the rounding `rq` of a quotient of whole numbers, which is monotone (`Proof/IeeeRound.lean`, `Proof/IeeeRange.lean`); the `exp` of `ieee` is shown to meet the assumptions |
| C60 | tanh, softmax with IEEE arithmetic (`Machine`), any `exp` with `ExpOK` | the same; exact condition for a NaN result; the claim is violated when `exp` overflows (`Proof/IeeeAct.lean`) |
| C61 | elementwise and selecting operators | both kinds are described by what they do to the list of elements: apply a function, pick positions that depend on the dims only (`Proof/Commute.lean`) |
| C62 | pooling, conv, batch_norm, softmax, matmul, slice | the theorems about values (C31, C37, C38, C40, C44) for the whole batch and for the part, compared coordinate by coordinate (`Proof/Batch.lean`) |
| C63 | add, sub, mul, div, full | a calculation is a tree of calls (`Spec/Calc.lean`); by induction it computes its value at each position (`Proof/Calc.lean`), which for an integer type is congruent to the value of the polynomial |
| C64 | add, sub, mul, div, full | the same induction; the laws are proved for every binary format from the rounding function (`Proof/IeeeLaws.lean`) |
| C65 | matmul, dot, add, sub, mul | a calculation is a tree of calls (`Spec/MatCalc.lean`); by induction it computes its value in each row and column (`Proof/MatCalc.lean`), which for an integer type is congruent to the exact whole number |
| C66 | matmul, dot | the same induction; adding a product with a zero, and adding a product with a one to zero, is exact for every binary format (`Proof/IeeeSelect.lean`) |
| C67 | constructors, copies, moves and assignments of Unary_Input, Binary_Input, Conv_Input, Result | symbolic execution with the relation of C50 (`Props/Holds.lean`) |
| C68 | slice, reshape, squeeze, dropout, pooling, conv, batch_norm, softmax with parameters that change nothing | from C18, C19, C21, C37, C38, C40, C43, C44 and the neutral elements of IEEE arithmetic (`Proof/Neutral.lean`) |
| C69 | cast, any sequence | `Proof/Casts.lean`: a sequence of casts computes the composition of the element conversions, from C11; when compositions agree: integers modulo powers of two, exactness of the conversions to `double` |
| C70 | every operator, cast, `set_item`, destroy, in any program | `Spec/Alloc.lean`, `Spec/AllocProg.lean`: allocators are numbered, `M.under k` runs a call with allocator `k` installed; `Proof/Local.lean`: a completed call does the same when the origins of untouched memory change; simplification: the two functions of an allocator are exchanged together |
| C71 | every operator, cast, and programs of them | `Spec/ReadOnly.lean`: the same call in memory where existing blocks are read-only; the ownership logic (`Proof/Quiet.lean`, `Proof/Own.lean`) carries a simulation (`Sim`): a completed run does not depend on the origins of blocks that existed before, read-only ones included |
| C72 | `softmax`, `batch_norm`, `pooling`, `matmul` with `reshape` | `Spec/Regroup.lean`: `Regrouped` = call directly, and reshape, call, reshape back; the same tensor. Any `FloatOps`; hypotheses: the arithmetic is defined (signed overflow is not), counters of type `int` do not overflow |
| C73 | `conv2d`/`conv`, `pooling`, `matmul`, `dot`, `softmax` against each other | `Spec/Overlap.lean`: `ConvAs` = convolve directly, and reshape both operands, call the other operator, reshape back; the same tensor. `GiveSame` for two operators on the same operands. Any `FloatOps`; commuting multiplication is a hypothesis where stated, and proved of `ieee` |
| C74 | `aitisa_coords_to_linidx`, `aitisa_linidx_to_coords`, `aitisa_coords_to_offset`, `aitisa_offset_to_coords`, `aitisa_get_stride` with invalid arguments | `Spec/Invalid.lean`: `Names` (coordinates name an element), `reach` (weighted sum over all integers). Symbolic execution with and without assertions (`Env.asserts`) |
| C75 | `add`, `sub`, `mul`, `div`, `cast`, `sqrt` on floating-point tensors | `Spec/Nearest.lean`: values as rational numbers, `Rounded` = nearest number of the format with ties to the even last bit; the root is specified by the middle between two numbers (no real numbers needed). `Proof/IeeeNear.lean`, `Proof/IeeeRoot.lean`: the softfloat `ieee` meets it, double rounding of roots included |
| C76 | `matmul`, `dot`, `conv` on floating-point tensors | `Spec/Error.lean`: exact sum of products and sum of absolute values as rational numbers, `slack` = the bound, `NearDot`. `Proof/Error.lean`: one rounding adds `u * |e| + d / 2` (from C75), induction over the terms; a sum that is a number has only numbers as partial sums |
| C77 | average pooling on floating-point tensors | `Spec/Error.lean`: `avgSlack`, `NearAvg`, `winRats`. `Proof/ErrorAvg.lean`: widening to `double` is exact, a sum is a sum of products with 1 (so C76's bound applies), one division, one narrowing |
| C78 | order: two calls on tensors of which the elements of one do not exceed those of the other | `Spec/Order.lean`: `Below`, `InOrder`, `OpRises`, `FactorsRise`, `Uniform`. `Proof/IeeeMono.lean`: rounding is monotone, hence every IEEE operation is in the usual sense; `Proof/OrderVal.lean`: sums, averages, maxima, roots. Sums of products need a machine that always or never fuses (`C78_mixed` is a counterexample) |
| C79 | batch normalisation on floating-point tensors | `Spec/Norm.lean`: `Denominator`, `normSlack`, `NearNorm`. `Proof/NormVal.lean`: NaN and infinity spread through operators, relative error of the rounded root, the chain of four rounded operations. `Props/Norm.lean` rests on C44 and has its limits on sizes |
| C80 | accuracy of softmax, sigmoid and tanh | `Spec/Share.lean`: `Code.off`, `NearRatio`, `Sharable`. `Proof/ShareVal.lean`: sums and differences of two numbers of a format have a relative error only (`grid_close`), sums of many, ratios of numbers that are off. `Props/Share.lean` rests on C36 and C37; results are compared with ratios of the numbers that the machine's exponential function returned, about which nothing is assumed |
| C81 | exchanging and merging max poolings | `Spec/PoolLaws.lean`: `Chain`, `SameResult` (two chains of calls with the same result), `Twice` (two poolings along an axis and the one that does both). `Proof/PoolVal.lean`: on IEEE arithmetic the scan from 0 depends only on the set of elements above 0 (`scan_same`). `Proof/PoolLaws.lean`: chains, windows of windows (`into_once`, `from_once`). `Props/PoolLaws.lean` rests on C38, C35 and C11. `Proof/PoolRoot.lean`: the root keeps order (C78) and the scan returns 0 or an element (C39), so the root of the outcome is the outcome for the roots; `Props/PoolRoot.lean` |
| C82 | padding is a border of zeros | `Spec/Border.lean`: `Win.bordered`, `inside`, `Bordered` (a tensor with its border stored), `SameNumber`. `Proof/Border.lean`: sums never hold a negative zero or a foreign NaN (`Settled`), so a zero term changes nothing (`settled_add_nil`, `step_extra`); `Pads` relates the lists of window elements (`win_pads`, `conv_pads`). `Props/Border.lean` rests on C38 and C40 |
| C83 | a convolution is a product of matrices | `Spec/Columns.lean`: `Patches` (the patches of a sample as columns of a matrix). `Props/Columns.lean`: the terms of an element of the product are those of the convolution and zero terms on the padding (`column_pads`); rests on C31, C40 and the lemmas of C82 |
| C84 | a tile of the result is the result of a tile | `Spec/Tiles.lean`: `Pick`, `Tile` (which windows are wanted, the part of the input under them), `Sliced`. `Proof/Tiles.lean`: `tile_at` (where the elements of a window are in the tile and in the whole), `tile_elems`, `tile_terms`. `Props/Tiles.lean`: chains of calls as in C81 (pooling), two runs (convolution, matrix product); rests on C21, C31, C38, C40 |
| C85 | changing signs changes signs only | `Spec/Mirror.lean`: `Opposite` (other sign, or two zeros, or two NaN), `OpTurns`, `FactorsTurn`, `MinusOne`. `Proof/Mirror.lean`: `Opp` on decoded numbers, `sum_mirror`, `mul_mirror`, `div_mirror`, `convert_mirror`, `macs_turn`, `tanh_turns`. `Props/Mirror.lean`: the two-run form of C78, `Uniform` machines for sums of products, `Machine` elsewhere |
| C86 | multiplying the data by powers of two loses nothing | `Spec/Scale.lean`: `Scaled k` (exact rational values), `Ample` (not below the normal numbers), `OpScales`, `FactorsScale`, `Scales` (unless the second result is not finite), `Unfused`. `Proof/Scale.lean`: `rq_scaled`, `near_scaled` (rounding commutes with powers of two), the operations by `units_*`, `macs_grow`, `avgOf_scales`, `scanOf_scales`. `Proof/ScaleRoot.lean`: roots of numbers multiplied by powers of four, by comparing the midpoints that decide the rounding. `Props/Scale.lean`: the two-run form of C78; an example shows that products below the range are not scaled |
| C87 | sums, differences and quotients tell numbers apart | `Spec/Cancel.lean`: `SignOf` (sign of an element against an exact rational), `Alike` (neither more than twice the other). `Proof/Cancel.lean`: both operands are whole multiples of the smallest unit of the format, so their difference is 0 or at least that unit (`sign_rounded`), and it is a number of the format if it is small or the operands are alike (`alike_units`, `small_units`); `gap_above` bounds the relative gap between neighbours from below, `near_one_equal` shows that only equal numbers have a quotient nearer to 1 than to the neighbours of 1. `Props/Cancel.lean`: from C75 |
| C88 | squares and close differences can be undone | `Spec/SquareRoot.lean`: `EndsIn` (what a chain of calls gives), `Squarable`. `Proof/SquareRoot.lean`: the rounded square is off by at most one part in `2^p`, too little to reach the middle between the number and its neighbours (`root_not_above`, `root_not_below`); below a power of two, where the gap is halved, the square is exact (`square_power`). `Props/SquareRoot.lean`: `C88_square_root`, `C88_sub_add`, `C88_add_sub`. |
| C89 | relu splits a tensor into a positive and a negative part without loss | `Spec/Parts.lean`: `SplitRun` (the four calls), `unsigned` (the sign bit cleared). `Props/Parts.lean`: `C89_difference`, `C89_sum`, `C89_integers`; on bits, `parts_fmt`: one of the two parts is always +0, and adding or subtracting +0 changes nothing but minus zero. Only NaN is excluded; for integer types, elements whose opposite the type does not hold. |
| C90 | the larger and the smaller of two tensors by relu | `Spec/Larger.lean`: `ExcessRun` (the three calls). `Props/Larger.lean`: `C90_larger`, `C90_smaller`, from the exactness of whole numbers (C56). For unsigned types the condition on the difference leaves only pairs with a at least b. |

The current status of each is in `MANIFEST.json`.

## 4. Vocabulary of the specifications

* `At m R T` – block ids `R` of memory `m` hold the well-formed tensor value `T` (dtype, device, dims,
  bytes). `Elems T c xs` – the bytes of `T` are the elements `xs` of type `c`.
* `Frame m m'` – every block that existed in `m` is the same in `m'`. `Ext m m' K` – moreover exactly the
  blocks `K` are new. `Produces` – exactly the blocks of one tensor are new.
* `Delivers`, `Creates`, `Attempts`, `Tries`, `Refuses` – outcomes of a call: the value on success, or (only
  if the allocator can fail) the reported failure and what is left behind in that case.
  `DeliversCareless` adds the null dereference that follows an unchecked failed allocation;
  `DeliversMalloc`/`TriesMalloc` are for the direct `malloc` calls of `binary_op.c`.
* `InRange ds cs`, `lin`, `elemAt` – coordinates, row-major offset, element at coordinates.
  `Broadcasts a b out`, `under ds cs` – broadcast shape and the coordinates read in an operand.
* `Win` – parameters of one window axis, `winAt` – input coordinates of a window element, `convTerms` – the
  pairs multiplied for one output element of a convolution; `Leaves` – outcome of a call whose status is
  meaningless (convolution).
* `bnRequires`, `FirstFails` – the requirements of batch normalisation in order of precedence; `NormTo` – the
  normalised element; `AttemptsMalloc` – outcomes of a call careless about failed allocations.
* `OpResult`, `Converts`, `ReducesTo`, `MacResult`, `DotTo` – the C arithmetic on elements, independent of
  the executable model.
* `Fmt`, `b32`, `b64`, `ieee` – the IEEE formats and the operations on their bit patterns. `Fmt.fma`, `fused` – fused multiply-add and `ieee` with it;
  `Machine` – all arithmetics that round `a + b * c` once or twice, with any exponential function; `FactorsSwap` – `a + b * c = a + c * b`. `Stands x n` – the element `x` is the whole
  number `n`; `Numbers ds xs A` – all elements are, with values `A` by coordinates; `Within c n` – `n` in the range that the type
  holds without gaps; `SumsWithin` – so are all products and partial sums; `WholeOp` – the exact result of an operator;
  `convNums`, `winNums` – the numbers behind `convTerms`, `winElems`. `Positive`, `NotNaN`, `zeroLike`, `zeroVal` – classes of bit
  patterns and the zero of a type. `withExp`, `ExpOK`, `ExpMono` – `ieee` with any exponential function and the assumptions on it;
  `InUnit`, `WithinOne`, `AtMost`, `IsInf`, `negVal`, `asDouble`, `negDouble` – range, order and sign of an element.
* `Each`, `Move` – an elementwise and a selecting operator with its arguments; `sliceAfter` – the composition of two slice requests;
  `rowsOf` – the request for samples; `SameTensor` – two handles hold equal tensors in separate memory; `PartsIndependent` – the relation
  between four calls that C62 states.
