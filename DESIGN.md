# Formal model of Einsums in Lean 4

## What is here

* `properties.jsonl` — the semantic properties (C01, C02, ...), in terms of the public API.
* `lean/Verif/Model/*.lean` — executable model of the code, function by function. Every
  definition cites the file and lines in `/repo` it models and says where it simplifies.
* `lean/Verif/Spec/*.lean` — small specifications. Those that talk about
  tensors or program states import the data type from `Model`, and use of it the read access only.
* `lean/Verif/Proofs/*.lean` — helper lemmas.
* `lean/Verif/Props/*.lean` — the property theorems, and beside each one an `example` showing a
  concrete non-trivial case that meets its hypotheses.
* `MANIFEST.json` — which theorems settle which property.
* `seeded/LOG.jsonl` — mutations of the model and the theorems that caught them.

## Modelling conventions

* **Outcomes.** A C++ call ends normally, throws, or has undefined behaviour (out-of-range access,
  division by zero, non-termination where noted). `Outcome` has a distinct constructor for each.
  "No undefined behaviour" is therefore part of every theorem that concludes `= .ok _`.
* **Integers.** Dimensions, strides and offsets are unbounded `Nat`; indices that may be negative
  are `Int`. Wrap-around is modelled only where a property is about it (C05, hash functions,
  allocation sizes).
* **Element values.** Data movement properties hold over an arbitrary type. Arithmetic properties
  are stated over a commutative (semi)ring, i.e. exact arithmetic: rounding, and hence the effect of
  a different summation order on floating point results, is outside the model. Where NaN matters
  (C17) the element type has `+` and `*` without any law.
* **Storage.** A tensor or view is a data list with an offset, dimensions and strides; an access
  outside the list is undefined behaviour. Writing through a view gives a new data list.
* **Threads.** An OpenMP loop is a list of iterations, each a list of atomic element actions; a
  schedule is any interleaving. Weak-memory effects beyond data races are not modelled.
* **Templates.** Compile-time label computations (tuples of index types) become computations on
  lists of labels; ranks become list lengths.

## Plan per property

* **C01 Linear position and multi-index are inverse bijections.** Structural recursion over the dimension list (strides, sentinel decoding, inner product). Induction on the list with Nat.div_add_mod.
* **C02 Checked indexing accepts exactly the Python index range.** Outcome-valued loop; characterised by an independent specification (pointwise normalisation). Induction over the index list.
* **C03 Different multi-indices address different elements inside the storage.** Strided model (data, offset, dims, strides); injectivity from C01.
* **C04 Reading returns the last write and writes touch nothing else.** Refinement to a function from multi-index to value; induction over the write history.
* **C05 size() is the number of elements.** std::accumulate with an int initial value models each step truncated to 32-bit signed. Proved for prod < 2^31; the unconditional statement is refuted by a witness shape.
* **C06 Reshape keeps the elements in row-major order or rejects.** Outcome model including the integer division by zero when another requested dimension is 0 (undefined behaviour, reported as a disagreement).
* **C07 Resize gives the requested shape and keeps the row-major prefix.** Strided model; new elements are indeterminate (the content of fresh memory is a parameter); invariant by induction on a list of resizes.
* **C08 Sub-tensor by All/Range/integer selects the stated elements.** Fold over argument list with the code's counter variable. The code stores a Range start in slot `counter` instead of `i`: refuted by a witness when an integer precedes a Range, proved when no integer precedes a Range with non-zero start (partial).
* **C09 An all-Range view reads and writes exactly the boxed region of the parent.** Views share the data list and carry offset/strides; frame property by injectivity; induction over writes.
* **C10 A view of a view selects the composed region.** Equality of offset, dims and strides.
* **C11 Copying and assigning tensors preserves every element.** Model of the realloc test and the copy loops; theorem by cases plus the row-major enumeration lemma.
* **C12 Assigning a view to a tensor makes the tensor equal to the view.** The code loops over the destination's dimensions and never resizes: proved for equal shapes (partial), refuted for a smaller destination by a witness, out-of-range read for a larger one.
* **C13 Scalar and tensor compound assignment is elementwise for every thread count.** Chunk boundaries as in the code, threads as lists of element updates, arbitrary interleavings; chunks shown to partition [0,n).
* **C14 to_rank_1_view is the row-major flattening.** Strided model. For views the code uses stride(0)*dim(0) as length: correct only for contiguous views (partial + witness).
* **C15 The generic einsum computes the contraction.** Labels are an arbitrary type; label-list computations modelled as lists; independent specification sums over label assignments; repeated contracted labels inside one operand are refuted by a witness (C16).
* **C16 A label repeated in one operand and contracted sums along the diagonal once.** The code iterates over one loop per occurrence in A. Refuted by a witness; exact value (dimension-fold overcount) proved for every dimension.
* **C17 C_prefactor zero overwrites C whatever it held.** Element type with arbitrary + and * (no laws). Proved for the generic algorithm and the element-wise product; refuted for the dot and outer-product paths, which scale instead of clearing.
* **C18 The parallel generic einsum is deterministic.** Interleaving semantics of per-iteration action lists; non-interference from injectivity of the target map.
* **C19 The matrix-multiply fast path computes the same contraction.** Flattening lemma for contiguous label groups; all eight transpose cases. Labels shared by A, B and C satisfy the test but break the result (refuted by witness); proved under the missing test (partial).
* **C20 The matrix-vector fast path computes the same contraction.** As C19; a label of C in neither A nor B passes the test and is then not looped over (refuted by witness), proved when every label of C occurs in A (partial).
* **C21 The outer-product fast path computes the same contraction.** The code does not require A's and B's labels to be contiguous in C: refuted by witness; proved when C is A's labels followed by B's or the reverse (partial).
* **C22 The dot-product fast path computes the same contraction.** Nested loop / rank-1 view dot equals row-major sum.
* **C23 The element-wise fast path computes the same contraction.** Loop over the row-major enumeration.
* **C24 Inconsistent dimensions are rejected before anything is written.** Decision logic stated outright; the check does not compare a label repeated within one operand (witness).
* **C25 Row-major gemm is the matrix product.** Reference column-major BLAS as specification; the wrapper swaps operands. The early return for k = 0 leaves C unscaled (witness); proved for k > 0 (partial).
* **C26 Row-major gemv and ger are the matrix-vector product and rank-one update.** Column-major reference semantics; wrappers flip the transpose flag / swap vectors.
* **C27 Permuting (sort) puts every element where its labels say.** Generic loop over target combinations with find_position.
* **C28 Unfolding keeps every element exactly once.** Row-major position of the list with one entry removed.
* **C29 khatri_rao is the column-wise Kronecker product.** Label-list model; the code passes A's labels regrouped instead of in A's order (witness), proved when common labels come last in both operands (partial).
* **C30 Each multi-index belongs to exactly one tile.** Prefix-sum offsets; loop model; induction over the partition.
* **C31 A tiled tensor behaves as a dense tensor of zeros plus writes.** State machine refined to a function; induction over operations.
* **C32 Tiled matrix product equals the dense product.** Sum over tiles regrouped as sum over the whole axis.
* **C33 Tiled dot and true_dot visit every tile exactly once.** The code's tile-number decoding uses grid_size(i) for the stride of axis Rank-1-i: refuted on a 2x3 grid; proved for grids with all axes equal (partial).
* **C34 A block tensor is zero outside its diagonal blocks.** State machine with prefix-sum ranges invariant; induction.
* **C35 Block matrix product equals the dense product.** Blockwise gemm and off-block zeros.
* **C36 Circular buffer keeps the last N values in order.** Refinement of head/tail/full to a list queue; induction over operations.
* **C37 Timer nesting is balanced and accounts every push.** Tree of counters with a path cursor; induction over the well-nested word. An unmatched pop at the root disables all later timers (witness).
* **C38 Trimming removes exactly the surrounding whitespace.** List of characters; unique-decomposition specification.
* **C39 Memory returned by the aligned allocator covers the request.** Arithmetic over Nat with the overflow guard explicit.
* **C40 arange writes exactly start, start+step, ... below stop.** Loop model with bounds-checked storage: length uses truncating division, so a non-divisible range writes past the end (witness); proved when step divides stop-start (partial).
* **C41 create_identity_tensor is one on the diagonal and zero elsewhere.** Loop over the first dimension; out-of-range write when another dimension is smaller (witness), proved when the first is the smallest (partial).
* **C42 CP reconstruction is the sum of rank-one terms.** Loop model; fold over modes and r.
* **C43 Tucker reconstruction multiplies every mode by its factor.** Mode-by-mode loop; induction on the number of modes.
* **C44 ALS uses matching unfolding and Khatri-Rao orders.** Combines C28 and C42; row-major position of remaining indices.
* **C45 Laguerre value and derivative are those of the series.** Clenshaw recurrence over a field of characteristic zero; loops modelled as folds.
* **C46 Integer function tensors index as their definition.** Outcome model with List Int indices.
* **C47 Delayed tensor arithmetic equals elementwise arithmetic.** Store of expression objects with pointers; refinement to formulas by an invariant over every program; dangling pointers as undefined behaviour.
* **C48 Sum, max and min over a tensor visit every element once.** Mixed-radix decoding of the linear counter is a bijection; strided partition over threads.
* **C49 Elements read by the Python index iterator are each multi-index once.** State machine; forward iteration proved, reverse iteration refuted.
* **C50 Indentation and line output.** State machine over character lists.
* **C51 Element-wise operations through a view touch exactly the view's elements.** Loop over a permutation of the index box; updateLoop invariant.
* **C52 scale, axpy and axpby act elementwise.** Refinement to the elementwise spec for row-major operands; refuted on strided views.
* **C53 Tiled direct product equals the dense one.** Loop over tiles with an invariant; refuted when a tile of A or B is absent and beta is not one; partial otherwise.
* **C54 Tiled matrix times dense vector.** Segments of y as views; frame lemma for a change through a view; sum over tiles regrouped.
* **C55 true_dot conjugates its first argument.** true_dot is dot of the conjugated storage on every path.
* **C56 scale, scale_row, scale_column, axpy and axpby on block tensors act as on the dense form.** Loop over blocks; refinement to the dense form; scale_column refuted.
* **C57 dot and true_dot of block tensors equal the dense sums.** Sum over blocks regrouped into the sum over the dense index box; dense path through the conversion.
* **C58 Direct product of block tensors equals the dense one.** Loop over blocks; refinement to the dense form.
* **C59 ndigits counts decimal digits.** Induction over the division loop against powers of ten; zero yields 0 although it has one digit (witness).
* **C60 A Section accounts its own lifetime once.** Reduction to the timed block of C37; sections ended out of order exchange their times (witness for every state).
* **C61 Lines printed by several threads never mix.** Small-step model of the mutex-protected writes; invariant over steps.
* **C62 The timer report lists every timer once, in order.** Tree refinement of C37 plus a pre-order characterisation by pairwise order; 18 or more nested timers make the report throw (proved).
* **C63 Sum, max and min of a block tensor.** Per-block theorems of C48 plus the block decomposition of C34; sum proved, max/min refuted when all stored elements have the same sign (zeros ignored).
* **C64 abs, invert, exp and scale return a new tensor with the function applied to every element.** Thread counters partition the elements (C48); every interleaving gives the same result; on block tensors refuted for functions with f(0) != 0.
* **C65 Incremented, ones, diagonal and diagonal-like tensors.** Loop invariants over in-range writes; diagonal_like with a vector longer than the diagonal refuted.
* **C66 Norm, RMSD and weighting of tensors.** Folds over the box of indices; norm refuted for complex elements (squares instead of absolute squares).
* **C67 The Tucker core inverts the reconstruction for orthonormal factors.** Mode-product lemma iterated over the modes; product of sums over the index box. The factors (SVD) are an argument.
* **C68 Alternating least squares never increases the error.** Exact arithmetic over an ordered ring; xGESV by contract; normal equations from C15, C23, C28, C29, then orthogonality of the residual; invariant over sweeps.
* **C69 A view with dimension -1 extends to the end.** Model of the float computation with an arbitrary nearest-rounding function; proof for sizes below 2^24, witness beyond.
* **C70 The eigenvalues of the companion matrix are the roots of the series.** Tridiagonal matrix identity from the three-term recurrence; witness for a series with lower coefficients.
* **C71 get_domain is the least and the greatest element.** Invariant over the iterations of a thread and over the critical sections.
* **C72 A view of a function tensor knows whether it is a full view.** Index composition is the identity under the flag's condition; witness for views made by operator().
* **C73 Reversed index iteration.** State machine; refuted for every tensor with at least two elements; what it does yield is proved.
* **C74 Runtime tensors check their indices.** Index check from C02; induction over the history; views with too few indices refuted.
* **C75 Slices of runtime tensors.** Induction over the axes with the unsigned conversions of the code; negative range bounds, doubly negative integers and empty tensors refuted.
* **C76 Filling and compound assignment of runtime tensors and views.** Permutation-invariant loop lemma; refuted for tensors of equal size and different shape and for views of 2^32 elements.
* **C77 Construction and assignment of runtime tensors.** Permutation-invariant loop lemma; assignment of strided views refuted.
* **C78 Runtime views with other dimensions.** Row-major positions; refuted for strided views and for other sizes.
* **C79 Python einsum: the generic plan.** Model threads as sequences of loads and stores; schedules as interleavings; regroup the sum over all indices. Refuted for two threads summing into one element and for a scalar C.
* **C80 Python einsum: dot and element-wise products.** Row-major enumeration of the indices; sums independent of the division. Refuted for empty index strings.
* **C81 Python einsum: outer products.** Reduce to ger on the two blocks of C; refuted for other prefactors (the scaling loop overruns C), interleaved or missing indices and empty results.
* **C82 Python einsum: matrix-vector products.** Reduce to gemv on flattened blocks when as many indices are summed as kept; refuted otherwise.
* **C83 Python einsum: matrix products.** Reduce to the gemm path of the C++ einsum when as many indices are summed as kept and transposed operands are square; refuted otherwise.
* **C84 Python einsum: inconsistent dimensions are rejected.** Refuted with concrete buffers under every schedule.
* **C85 Python einsum: every specification compiles or is rejected.** Case analysis of the plan conditions; refuted: operands without common index and C with the indices of B.
* **C86 Python subscripts follow Python's rules.** Model of the conversion of tuples to ranges and of the three kinds of keys over the runtime-view model; spec with Python's rules. Refuted: negative integers in a tuple, integers out of range on vectors, empty slices.
* **C87 Iterators over runtime tensors visit every element once, in order.** Induction over the calls, from the position of the iterator. Refuted: empty tensors throw, iter(it) is a copy.
* **C88 Tensors take shape and items from buffers.** Model of buffers as items at byte offsets; the element loop as permutation of the sentinels. Refuted: strides that are not a whole number of items; assign changes the tensor before it throws.
* **C89 Views of buffers share the exporter's memory.** Direct computation with the strides; refuted for buffers without axes and for strides that are not a whole number of items.
* **C90 Buffers assigned to views and slices change exactly the selected elements.** Element loop over the view with frame; sub-views from C86; export followed by the buffer specification.
* **C91 einsum on tiled tensors is the contraction.** The sum over all labels splits into a sum over tile numbers; each iteration adds one summand to the whole of C (invariant over the schedule), using C15 for the tiles. Refuted for operands that partition a label differently.
* **C92 einsum of tiled tensors into a scalar.** As C91 with no labels kept; the pattern that runs dot is reduced to C33.
* **C93 einsum on block tensors is the contraction.** The sum over all labels splits into a sum over block numbers; with a common label only one block contributes, and none between blocks; each block is C15; loop invariant over any schedule.
* **C94 einsum of block tensors into a scalar.** Exact value computed for every input (the scaled C is counted twice outside the dot pattern): refutation, and the positive statement where C_prefactor*C is 0 or the pattern is a dot product (C57).
* **C95 einsum of a vector and a block tensor.** As C93, with the vector cut at the block boundaries; refuted when the vector's label is not one of the block tensor's, and for scalars with C_prefactor*C not 0.
* **C96 einsum on block and tiled tensors together.** Loop invariant over any schedule: each iteration adds the part of its blocks and tiles to the elements C stores (C15 on one block); the parts add up to the contraction (C91). Between the blocks of C the exact value is shown to vanish where an operand forces it; counterexamples elsewhere.
* **C97 Element-wise product of block and tiled tensors.** Vectors: loop invariant over any schedule, each block and tile by directProduct; refuted for matrices, where block i meets tile (i,0,...), and for missing tiles.
* **C98 QR factorisation.** Loop invariants for the transposing wrappers, then the LAPACK contract as a hypothesis; refuted for matrices that are not square.
* **C99 Singular value decomposition by divide and conquer.** As C98; refuted for Vectors::Overwrite.
* **C100 Singular value decomposition and null space.** The gesvd wrapper by loop invariants; both callers refuted for every matrix: the array superb is one element too short.
* **C101 Determinant.** LU contract as hypothesis, determinant of the factors; the pivot loop with fuel: refuted, it does not end after any interchange, and otherwise multiplies the diagonal of the wrong matrix.
* **C102 LU factorisation and inverse.** LU contract as hypothesis; determinant of the factors decides info; transposition argument. Refuted for views with a stride along the rows, for getrf of other shapes, and for P L U.
* **C103 Matrix norms.** xLANGE contract as hypothesis; refuted for One and Infinity, which are exchanged, and for matrices that are not square.
* **C104 Product B^T A B.** two gemm calls (C25) in matrix form; refuted in debug builds for every rectangular B, whose wrong dimension is asserted.
* **C105 Scaling a row or a column.** loop invariant of xSCAL over the elements of the view; refuted for a number that is out of range, which is not checked.
* **C106 Eigenvalues of a symmetric matrix.** xSYEV contract as hypothesis; transposition argument: eigenvectors are the rows of A, and it is the lower triangle that is read. Refuted for the documented triangle, a strided W and the empty matrix.
* **C107 Powers of a symmetric matrix.** from C106, C105 and C25 in matrix form; functional calculus of an orthogonal diagonalisation. Refuted for the documented cutoff (it is relative, and used only for negative powers) and for the empty matrix.
* **C108 Lyapunov equation.** Schur and Sylvester contracts as hypotheses; what is solved is A X + X A = s^2 Q. Proved for symmetric A and s = 1, refuted otherwise.
* **C109 Randomised singular value decomposition.** QR and SVD contracts as hypotheses; proved for k + 5 <= rows, refuted for all other k (the QR call is rejected).
* **C110 Randomised eigenvalue decomposition.** QR and symmetric eigenvalue contracts as hypotheses; proved for k + 5 <= n, refuted for all other k.
* **C111 Eigenvalues of a general matrix.** xGEEV contract as hypothesis (spectrum as factorisation of the characteristic polynomial); proved for contiguous rows, refuted for W of double matrices (rounded to float) and for other layouts (returns normally, computes nothing).
* **C112 Dot product of three tensors.** Induction over the flat index; proved for tensors and for vectors of any stride, refuted for other views of rank two or more (flattened with stride 1).
* **C113 Linear algebra on tensors computed by a function.** Loops over a permutation of the iterations; each updates one element once.
* **C114 Elementwise product with tensors computed by a function.** Loop over a permutation of the iterations; proved for beta = 0, refuted whenever beta*C is not zero (the parameter is ignored).
* **C115 Inverse of a block matrix.** C102 for each block, block-diagonal matrices multiply block by block; a singular block makes the matrix singular. Refuted when a block is empty.
* **C116 Eigenvalues of a block matrix.** C106 for each block and its part of W, invariant over the processed blocks, eigenvectors of a block extended by zeros. Refuted for the order of the eigenvalues of different blocks.
* **C117 Powers of a block matrix.** C107 for each block and the functional calculus of a block-diagonal matrix. Refuted for the cutoff, which is relative to the largest eigenvalue of each block.
* **C118 What is stored through views of a disk tensor reaches the file.** Invariant over histories between the program's memory, the views and the file; a view's hyperslab has the row-major order of the view. HDF5 by its contract. Refuted for overlapping views, a selected axis with one element, and negative arguments.
* **C119 A const disk tensor is never changed.** Invariant over histories: every view is read-only. Refuted for operator=(const T *).
* **C120 A tensor written to a file is read back.** The hyperslab is the leading block of the data set. Proved for new names and data sets of the same shape, refuted for every data set of another shape.
* **C121 Opening and creating disk tensors.** Case analysis on the files and the chunk rule. Refuted: the shape of an existing data set is not checked; empty axes; the constructor from a tensor opens state::data() instead of the given file.
* **C122 fft computes the discrete Fourier transform.** FFTW's transforms are arguments with its documented contract; the fronts choose the length and the buffers. Refuted: the size of the result is not checked for complex signals.
* **C123 ifft inverts fft up to the length.** Orthogonality of the powers of a primitive root of unity; symmetry of the transform of a real signal. Refuted: no size check for complex numbers; the input may be overwritten.
* **C124 fftfreq lists the frequencies of the transform.** Two view assignments from arange and a scaling, with exact arithmetic. Refuted for n = 0.
* **C125 sort of block tensors permutes the whole tensor.** Each iteration changes its own block (loop lemma), the permutation of the block is C27, and off-diagonal elements stay zero because a permutation keeps the set of indices. Refuted: other block structures are not refused.
* **C126 gesv solves linear systems and reports singular matrices.** LAPACK's xGESV is an argument with its documented contract; the memory it reads and writes is modelled. The right-hand sides are rows: X A = B. Refuted: A X = B; shapes are not compared; views (dimensions are passed for strides); empty matrices.
* **C127 gesv of block tensors solves the whole system.** An invariant of every interleaving of loads and stores of info_out; the return value is refined to a small machine. Refuted: info_out |= info is a data race and can lose the report of a singular block; block sizes are not compared.
* **C128 Kernel launches give every iteration to exactly one worker.** The enumeration of the threads of all blocks is shown to be an interval; the iterations are a permutation.
* **C129 Element-wise assignment to device tensors.** Loads and stores of the workers are interleaved arbitrarily; different iterations touch different elements, so each element sees its own load and store. Refuted: operations with a number on views (the element count is strides[0]*dims[0]); other shapes are not refused.
* **C130 Copies between device tensors and device views.** As C129. Refuted: default-constructed targets throw; assignment of a view of another shape reads out of bounds; copies of view objects may read past the end of the tensor; host tensors of a multiple of 2^32 elements are not copied.
* **C131 Element functions of device tensors.** Model the copy and the kernel under every interleaving. Refuted for views with gaps: the strides of the argument are used on the new tensor.
* **C132 Sum, maximum and minimum of device tensors.** Model the phases between barriers. Holds for at most 16 elements. Refuted for more: half of the workers never reach the result, and from 1024 elements on it contains uninitialised shared memory.
* **C133 Dot products of device tensors.** Clearing and atomic additions of the workers are interleaved arbitrarily. Holds when the result is cleared first. Refuted: nothing orders the clearing by worker 0 and the additions of the others; true_dot ignores the strides of views; shapes are not compared.
* **C134 Contractions of device tensors by the generic algorithm.** Loads, stores and atomic additions are interleaved arbitrarily between barriers; each element of C sees the operations that address it. Element-wise products and scalar results hold outright; other contractions when no element is added to before it is initialised. Refuted otherwise: the barrier concerns one block only.
* **C135 Sort of device tensors.** Each worker's loads and stores interleaved arbitrarily with registers per worker. Holds for beta = 0. Refuted: the loop advances by one instead of the number of workers, so C is combined several times; views with gaps; shapes.
* **C136 axpy, axpby, scale and direct products of device tensors.** Loads and stores of the workers are interleaved arbitrarily. direct_product holds for all layouts; the others for row-major ones. Refuted: axpy, axpby and scale on views with gaps; axpy does not compare shapes.
* **C137 symm_gemm, syev and pow on the device.** Kernel as interleaved atomic additions; sum over iterations by permutation to 0..m*m*n*n, decoded by quotient and remainder; eigen-decomposition as for C107.
* **C138 gemm, gemv, ger and gesv on the device.** hipBLAS/hipSOLVER routines by the contracts of BLAS/LAPACK; ger through two sorts (C135).
* **C139 Python views of arrays mapped into device memory.** Transition system of host buffers, registered ranges, mapping list and views; invariant by induction over all histories: mappings are disjoint, registered with the driver and have as many users as live views.
* **C140 Python views of arrays copied to device memory.** Host memory as a list, buffer by offset, shape and byte strides; number of bytes copied as in the constructor (strides[0]*shape[0]); contiguous buffers by row-major arithmetic, the other layouts refuted for all sizes.
* **C141 Contractions of the Python interface on device memory, generic plan.** The kernels as interleaved loads, stores and atomic additions between barriers (as C134); positions from the table of strides per label; repeated labels by an independent specification keepFirst. Refuted: order of initialisation, repeated labels, labels only C has, scalar results.
* **C142 Dot products and element-wise products of the Python interface on device memory.** Clearing and atomic additions interleaved as blocks with one barrier each; loads and stores of the element-wise kernel interleaved arbitrarily. Holds outright for element-wise products, for dot products when the result is cleared first.
* **C143 Outer, matrix-vector and matrix products of the Python interface on device memory.** Compared call by call with the same plan on host memory with ab in place of cp, then the host theorems (C81-C83); the outer product by the scaling kernel and the host theorem for cp = 1. Refuted: cp is ignored by gemv and gemm.
* **C144 Matrix products of the GPU backend on host memory.** Host memory as lists with positions; the sizes of the copies as the code computes them (a character used as a condition); device buffers of those sizes; hipBLAS as the column-major contract. Square results proved; other shapes refuted for all contents.
* **C145 Vector operations and rank-1 updates of the GPU backend on host memory.** As C144; vectors that end with their last element and rectangular matrices refuted for all contents, the conjugation of the complex dot and ger for every number that is not real.
* **C146 Eigenvalue and linear solvers of the GPU backend on host memory.** As C144, with the LAPACK contracts IsSyev and IsGesv for the hipSOLVER routines; more right-hand sides than unknowns refuted for all contents.
* **C147 Resources of the GPU backend.** Each function as the sequence of its HIP calls, with an arbitrary failure function; induction over histories of calls.
* **C148 Hermitian eigenproblems.** Row-major storage handed to the column-major routine, whose documentation is assumed at the matrix it is given. Refuted for every Hermitian matrix that is not real: the rows are conjugates of eigenvectors.
* **C149 Random tensors.** The accesses of each thread to the engine and the elements; data race as two unordered conflicting accesses; the engine as a state with an arbitrary draw function.
* **C150 Random definite and semidefinite matrices.** The retry loops with a number of iterations as fuel, LAPACK contracts for getrf, geqrf and orgqr, matrix algebra of Q^T D Q. That the loop never ends for a singular first matrix holds for every number of iterations.
* **C151 Sum of squares.** Elements read through the stride, LAPACK contract for xLASSQ at the elements it is given.
* **C152 Weighted alternating least squares never increases the weighted error.** As C68, with the weighted unfolding and weighted Gram matrix: the update of the first factor is a least squares problem per row (the weight cancels, also where it is zero), that of the others one with weighted columns.
* **C153 Tucker decompositions by higher-order SVD and orthogonal iteration.** Exact arithmetic over a commutative (for the error: ordered) ring; xGESDD by contract. Elements of the unfoldings, leading columns, core from C67; the error by telescoping orthogonal projections along the axes; invariant over the iterations.
* **C154 Assigning to a view.** The loops over an arbitrary permutation of the indices, the source seen through the storage as it is written when it is shared. Frame and elements by induction over the order. Overlapping views and different shapes by general families of counterexamples.
* **C155 Starting factors of the CP decomposition.** Composition of einsum, xSYEV (by contract), sort, scale_column, views and assignment to views; the trailing or padded columns by index arithmetic; then the monotonicity of C68 from these factors. With several threads the padding is a data race.
* **C156 Interleavings of the parallel loops over tiles.** A small-step machine with one thread per iteration, the lock of the tensor and one lock per tile. Invariant: the finished iterations in some order give a tensor that differs from the current one only in tiles being worked on. Linearisation at the release of the tile lock; termination by the number of steps left and an iteration that can always move.
* **C157 Locks of tensors and views.** A machine of objects with shared pointers to mutexes, reference counts and owners. The specification recomputes from the history alone which objects show the same storage and how often each thread holds them; refinement by an invariant over the history.
* **C158 Formats of Python buffers.** The decision on the first letter and the item size against the table of PEP 3118; the loop by C88. Complex items for real tensors and formats of two codes by general counterexamples.
* **C159 Builds of einsum that test their results.** The comparison loop by induction, for arbitrary isnan and distance functions; the reference result by C15, for an arbitrary result of the algorithm under test, so that detection is proved also of wrong programs.
* **C160 Printing a tensor.** Byte-level model of the loop on top of the model of Print.cpp (C50). The specification gives the list of lines by chunks of the last dimension; the loop, which decides with remainders where labels and newlines go, is shown to give exactly these lines.
* **C161 Printed block and tiled tensors show their parts.** model the loops over blocks and grid positions on top of the printing of a tensor (C160); prove the written bytes are those of the parts in order; refute the use of the options for FILE*.
* **C162 Elements of device tensors are variables.** model the reference (pointer and side), the subscripts and the memory as separate allocations; simulate programs against arrays of values by induction over the statements; refute the range check at its boundary, on later axes and for 2^32 elements.
* **C163 Memory of device tensors is released exactly once.** model allocations and registrations as resources, the member functions as transformations of them and of the members, programs as lists of statements; prove by induction that the memory in use is at all times a permutation of what the objects own; refute for reshaping, copies of views, empty mapped tensors and memory mapped twice.
* **C164 Shutting the library down.** model the timers (C37), the handles and pools of the GPU and the reports written as the state of a process; prove for any use with a writable report that the state is again shut down with one more report, and any number of uses by induction; refute for the default argument, for finalising twice, for files that cannot be opened, for Python and for changing numbers of threads.
* **C165 Memory of tensors, and what their views show.** model blocks of memory with capacity and liveness, tensors as their owners and views as pointers, and all statements as transitions; invariant: live blocks are exactly those held, each by one tensor, with as many elements as the shape says; prove that a view equals what taking it again would give, by showing that its tensor stays in place; refute for growth beyond the capacity, for rejected reshaping and for tensors that were reshaped away.
* **C166 A printed runtime tensor shows every element once.** model the function over the two kinds of subscripts it uses, on top of the model of the line printer; prove by induction over columns and combinations that the output is the list of lines of the specification, for tensors and for views; refute for rank 0 (one index too many) and for width 0.
* **C167 After waiting for the GPU, the work is done.** small-step model of streams as queues with a count of finished operations, of the streams the handles are set to, of the flags as words of a vector of bits and of the mutex; prove by invariants over all interleavings that the unfinished work of a thread is in its own stream and that the flags are what was asked for; refute for set_stream on another thread or with work queued, for flags updated at the same time, and for the mutex that an exception leaves locked.
* **C168 A failing GPU call raises the exception of its status.** the switches as tables of enumerators and exception names with an arbitrary numbering; prove that what is thrown has the number of the status for every declared name, the text by concatenation, and the Python class through a fold of registrations; refute for numbers without a declared type, for the place of the function in the texts of hipBLAS, and for the four second names of HIP, whose classes never come to be.
* **C169 Switching OpenMP threads off in a scope and back.** programs as trees with an interpreter that follows the settings through constructors and destructors on normal and exceptional paths; induction on the program against the list of regions with the scopes they are in; an invariant on the stack of scopes for objects made and destroyed in any order; refute for a number of levels that is neither one nor all, for changes inside the scope and for scopes destroyed in another order.
* **C170 Views of device tensors.** reuse the device memory of C162 and the address arithmetic of C08 and C09 to show that every address of a view is that of the selected element; combine with the refinement for programs of C162; for copies the exact condition on boxes under which the copied span lies in the allocation; refute for an integer before a Range, for boxes that reach the last row and begin inside a row, for changes after a copy, and for flattening a part of the columns.
* **C171 Device tensors of no dimensions.** a state of allocations and tensors with a step per member function; simulation by a list of variables, by induction over programs, with one allocation of the right kind per live tensor as invariant; refute for plain copies and for names.
* **C172 The typed BLAS/LAPACK interface.** the specialisations and the functions they call as two tables of parameter names and argument names, transcribed from the source; evaluation of a call by binding names; equality with the backend call for any values, with the names of BLAS as specification; refute for gees<float> and the complex trsyl.
* **C173 Conversion between host and device element types.** one case per specialisation over abstract single and double precision types; equality of both parts with a specification by parts and precision; refute for hipComplex to hipDoubleComplex.
* **C174 The options of a view.** model the search for an argument by type and the constructor; first matching argument by induction over the argument list; permutation of options; elements of the view through the box and row-major lemmas; refute options of another rank, views with gaps and the computed dimension of matrices.
* **C175 Tensors of random numbers in Python.** model the two functions and the choice of the overload of __setitem__; induction over the row-major positions using C49 and C86; refute for NumPy scalars of single precision and for mixed values.
* **C176 The text of dimensions, strides, counts, offsets and ranges.** model the formatters with the trimming; numerals through digit lists; text by induction over the numbers; injectivity by splitting at separators.
* **C177 Enumerations as sets of flags.** model promotion, operation on bit vectors and conversion back; flags by division; pointwise for all positions.
* **C178 Blocks by name.** model the vector with its capacity, and copies and assignments of blocks; the look-up, the contents for all histories, the names for pushes and insertions with a new allocation; refute the other insertions and the assignment universally.
* **C179 Gauss–Laguerre quadrature.** model the function with xSYEV as an argument with its contract; the characteristic polynomial of the companion matrix is the Laguerre polynomial up to a factor, so the eigenvalues are its roots; orthogonality of the Laguerre polynomials and Lagrange interpolation give exactness and the formula of the weights; integrals by the Gamma function.
* **C180 Tensors to the device and back.** model the copies with their numbers of elements, copies outside an allocation as undefined behaviour; lists of elements in row-major order; refute large tensors universally.
* **C181 Tiled tensors to the device and back.** fold over the tiles with the assignment of C130 for each; show that the result is that of the assignment between tiled host tensors (C31); refute tiles of a multiple of 2^32 elements.

## Trusted base

* Lean 4.33.0's kernel, and its three standard axioms `propext`, `Classical.choice`, `Quot.sound`. The
  list per theorem is below. There are no further axioms, no `sorry`, no `native_decide`, no `bv_decide`.
* Mathlib's definitions used in statements (`Finset.sum`, `Finset.prod`, `Matrix`, `Polynomial`, ordered
  rings and fields, `ZMod`).
* That the model says what the code does. It was written by reading the code; every definition cites
  the lines. Nothing in the sandbox can compile Einsums, so the model was not compared with runs.
* External code enters through its documented contract only:
  BLAS `gemm`, `gemv`, `ger`, `dot`, `scal`, `axpy` (reference functions on column-major memory, in
  `Model/Blas.lean`); LAPACK and FFTW routines (a function argument with a hypothesis, or a recorded flag);
  HDF5 and h5cpp (a data set is a shape and its elements; hyperslabs outside it and bad chunks are refused; in
  `Model/Disk.lean`); HPTT (transposition by its documented result); range-v3 (`cartesian_product` of no ranges has one empty
  element); fmt (a negative width throws); C++ standard library containers and streams; `std::isspace` in
  the C locale; freshly allocated memory has arbitrary content.
* Rounding in `Tensor`'s `auto` dimension is a rounding function that must only return a nearest
  24-bit float (C69); the exponent range is not modelled.

## Not modelled

* GPU code other than the kernels and front ends named under C128 and later (streams, memory transfers, `HostDevReference`); the inside of hipBLAS and hipSOLVER; the inside of HDF5 (flushing, chunks in memory, crashes inside a call), MPI, BLAS/LAPACK/FFTW internals, wall-clock time, the exact text of
  numbers that are printed, floating-point rounding and exceptions (except C69), memory allocation failure.
* C++ template and overload resolution: which overload a call selects was read off the `requires` clauses.
* Weak-memory effects. A data race is undefined behaviour in C++; the theorems about threads show
  the accesses of different threads to be disjoint, or guarded by a lock. The unsynchronised read of the
  indentation string (`print_line` outside its lock) is not modelled.
* Lifetime of objects, except where it is the subject (C34 const access, C47 expression objects).
* Code that does not compile when instantiated, so has no behaviour to model: `BlockTensor`'s constructor
  from `Dim`, const `operator()` with a container, block `gemv`, three-operand block `dot`; `true_dot` of
  non-vector tiled tensors of real type; unary minus of a temporary `ArithmeticTensor`; conversion of an
  `ArithmeticTensor` to a `Tensor`; `get_domain` of complex numbers; tiled `operator*=` and `/=` with a tiled
  argument, tiled `gemv` with tiled vectors, tiled `ger`; `block_dim(s)` by name; views of function tensors with
  integers and ranges but no `All`. `from_roots` is unfinished (infinite loop, no return).

## Status per property, with the disagreements found between code and property

A refuted part is a theorem whose name contains `refuted` (or `dangling`, `throws`), with a concrete witness, next to the
`_partial` theorem that states what does hold.

* **C01** (proved). Round trips, range and row-major enumeration for every shape.
* **C02** (proved). Accept/reject characterisation for every dimension list and index list.
* **C03** (proved). Every freshly constructed tensor; also the basis of C04.
* **C04** (proved). Single writes and arbitrary write histories, for every tensor and every non-aliasing view.
* **C05** (partial). Proved below 2^31 elements; refuted above (int accumulator in std::accumulate).
* **C06** (partial). Full for requests without -1; with -1 excluded: empty tensor, or another dimension 0 (both refuted).
* **C07** (proved). Single resize, element preservation and resize histories.
* **C08** (partial). Proved when no integer precedes a Range and the view is non-empty; refuted otherwise (offsets[counter] overwrites).
* **C09** (proved). Reads, write histories, and unchanged elements outside the box.
* **C10** (proved). Nested boxes compose, same strided view.
* **C100** (partial). The gesvd wrapper with a superb of min(m,n)-1 elements. Refuted for every matrix: svd and svd_nullspace allocate min(m,n)-2, so the wrapper writes outside the storage, or the size wraps round and they throw.
* **C101** (partial). Singular and non-square matrices; triangular matrices without row interchanges. Refuted: after any row interchange det does not end (so for every regular matrix whose first element is 0); otherwise it multiplies the diagonal of the argument instead of that of the factor, e.g. det [[2,1],[1,1]] is 2. A 0x0 matrix is left out (LAPACK rejects the leading dimension 0).
* **C102** (partial). Square matrices and views with unit stride along the rows (so most slices). Refuted: other views (A(All,All,0) of rank 3) invert the wrong elements; getrf of a wide matrix works outside the storage, of a tall one stops; getrf factors the transpose, so P L U is not A.
* **C103** (partial). MaxAbs and Frobenius for square matrices and views with unit stride along the rows. Refuted: One gives the largest row sum and Infinity the largest column sum (the documentation says the function assumes column-major storage, which no tensor has); for other shapes the call is undefined.
* **C104** (partial). Release builds (NDEBUG) and square B in debug builds; A and B tensors or views with unit stride along the rows, C a tensor other than A and B. Refuted: in a debug build every rectangular B of the right shape fails an assertion.
* **C105** (partial). Row and column numbers in range. Refuted: a number out of range is not checked and changes elements outside the view.
* **C106** (partial). Symmetric non-empty matrices and views with unit stride along the rows, W contiguous; the eigenvectors are the rows of A. Refuted: the lower triangle is read, not the upper one; a strided W gets the values in the wrong places; LAPACK rejects the empty matrix.
* **C107** (partial). Symmetric non-empty real tensors; with the cutoff as implemented. std::pow is an argument. The complex overload calls a function that does not exist (hyev) and does not compile. Refuted: the cutoff is relative to the largest eigenvalue and ignored for non-negative powers; LAPACK rejects the empty matrix.
* **C108** (partial). Symmetric A and an xTRSYL that does not scale. Refuted: for other A the equation solved is A X + X A = Q; when xTRSYL scales by s the result is s^2 times the solution. The hypothesis on xTRSYL (INFO = 0) is that it solves the equation for the Schur factors of A, i.e. that the solution is unique.
* **C109** (partial). k + 5 <= number of rows (the oversampling of 5 is built in). Refuted: for every matrix with fewer than k + 5 rows the QR call is rejected, e.g. a 5x5 matrix and any k > 0. Vt has all n rows, U k + 5 columns: not truncated to k.
* **C11** (proved). Same-type and converting assignment (with exact throw condition), construction from a view.
* **C110** (partial). k + 5 <= n. Refuted: for every larger k the QR call is rejected. U has k + 5 columns, w k + 5 values: not truncated to k.
* **C111** (partial). Contiguous rows with large enough leading dimensions; W up to rounding to float. Refuted: for matrices of double the eigenvalues stored are rounded to float (Vendor.cpp casts both parts); for views with too small a leading dimension (transposed views) geev returns normally and nothing is computed. Complex eigenvectors stay packed in pairs of real columns as in LAPACK.
* **C112** (partial). Tensors and views with the layout of a tensor; vectors of any stride. Refuted: other views of rank two or more are flattened with stride 1, so dot over the left half of a matrix adds elements outside the view.
* **C113** (proved). The inputs are given by their elements (function tensors, chains of views, the Kronecker delta, stored tensors and views are shown to be such inputs); dimensions up to 2^31 where the multi-index is kept in int.
* **C114** (partial). beta = 0. Refuted: beta is an unnamed parameter; for every beta and C with beta*C nonzero somewhere the result is wrong.
* **C115** (partial). Blocks that are not empty. Refuted: with an empty block invert always stops with an error, whatever the other blocks are (the other functions skip empty blocks).
* **C116** (partial). All but the order of the eigenvalues of different blocks; W contiguous. Refuted: the eigenvalues are ascending within a block only.
* **C117** (partial). alpha not negative, or no eigenvalue below the cutoff relative to any other. std::pow is an argument. Refuted: the cutoff is applied relative to the largest eigenvalue of each block, so small blocks are not cut off.
* **C118** (partial). No negative arguments, more than one element along each selected axis, and views alive at the same time do not overlap. HDF5 is modelled by its contract (a data set is a shape and its elements); one call is one step, so a crash inside a write is not covered. Refuted for all disk tensors: two views of the same block, the one destroyed last restores its stale copy of the whole block; a selected axis with one element gives a tensor without elements into which the file is read; negative arguments, which tensors accept, throw.
* **C119** (partial). All calls but operator=(const T *). Refuted: operator=(const T *) does not check for read-only and writes the file.
* **C12** (partial). Proved for equal shapes; behaviour for smaller destinations characterised; refuted in general.
* **C120** (partial). New names and existing data sets of the same shape. Refuted: over a larger data set only the leading block is replaced and read returns the old shape; over a smaller one or one of another rank write throws. The version of write for tensor views uses the function state::data as a value and does not compile.
* **C121** (partial). Refuted: an existing data set of any other shape is accepted (views then throw or see a part); with the default chunk no disk tensor with an empty axis can be created; the constructor from a tensor looks for the name in the given file but opens it in state::data(). The rank of the new data set of that constructor (cdims.rank is never set) is taken to be right.
* **C122** (partial). Exact arithmetic; FFTW's transforms by contract. All of the real case; the complex case with a result of at least n elements. Refuted: for a complex signal and any shorter result nothing is refused and FFTW writes past the end of the storage.
* **C123** (partial). Exact arithmetic; FFTW's transforms by contract. Both round trips proved. Refuted: with complex numbers any a shorter than result is read past its end; to real numbers, FFTW's contract lets the constant input a be overwritten (no FFTW_PRESERVE_INPUT).
* **C124** (partial). n > 0, exact arithmetic. Refuted: fftfreq(0, d) writes one element past the end of the empty vector ((0-1)/2+1 is 1).
* **C125** (partial). Same block sizes. If A has more blocks than C the call does not return normally (an exception leaves a parallel region). Refuted: block structures are not compared: a 2x2 block sorted into two 1x1 blocks writes past the end, and with fewer blocks in A the remaining blocks of C are left as they are. The version for tiled tensors does not compile.
* **C126** (partial). Tensors of fitting shapes, with X A = B. Too short rows of B stop the program (XERBLA). Refuted: A X = B; longer rows of B and an A with more columns than rows are not refused; with fewer columns the storage is overrun; views as A or B (dimensions are passed as leading dimensions); empty matrices stop the program.
* **C127** (partial). For every interleaving when A is regular; the return value for singular A when the iterations do not overlap; another number of blocks throws. Refuted: the data race on info_out loses the report of a singular block; other block sizes are not refused.
* **C128** (proved). 
* **C129** (partial). Device tensors: every operation under every interleaving; fill also for box-shaped views. Refuted: += and the like with a number on a view update elements several times (the first row of the 2x2 view of a 2x3 tensor twice) or, when the first stride is small, not at all, because strides[0]*dims[0] is used as the number of elements; tensors of another shape are not refused and are read out of bounds.
* **C13** (proved). Every thread count and every interleaving; throw proved for element counts below 2^31 (C05).
* **C130** (partial). Same shapes (assignment of a device tensor: any shape) and fewer than 2^31 elements for host sources and view targets. Refuted: a default-constructed device tensor cannot be assigned to; assignment of a view of another shape is not refused; copying a view object reads dims[0]*strides[0] elements and can leave the tensor; host tensors of a multiple of 2^32 elements are silently not copied.
* **C131** (partial). Every view whose elements all lie in the first size() places after its first element (every tensor, transposed views), fewer than 2^31 elements. Refuted for other views: the kernel uses the strides of the argument on the new dense tensor and writes outside it.
* **C132** (partial). At most 16 elements: right under every interleaving. Refuted: for 17 to 1023 elements some element never influences the result (a tensor of ones sums to less than its size), because the tree has one level too few; for 1024 and more the result contains the uninitialised shared memory of the first block.
* **C133** (partial). Every interleaving in which worker 0 clears the result before any other worker adds to it; true_dot for tensors. Refuted: for every other worker there is an interleaving that loses exactly its products, so that tensors of ones of any shape with two or more elements can give less than their size; true_dot ignores the strides of views; operands of different shapes are not refused and are read out of bounds.
* **C134** (partial). Element-wise products (same labels in C, A and B) and scalar results: every interleaving. Other contractions: every execution of the blocks in which no element of C is added to before it is initialised, fewer than 2^31 elements. Refuted: __syncthreads() is a barrier of one block, another block may add to an element before it is cleared; C(i) = sum_k A(i,k) B(i,k) of ones gives 1 instead of 2.
* **C135** (partial). beta = 0, row-major A (C any view), fewer than 2^31 elements: every interleaving. Refuted: every worker goes on to the end instead of advancing by the number of workers, so with beta = 1 an element can be added many times; a view A with gaps is read with its own strides as if it were dense and C is written out of bounds; targets of another shape are not refused.
* **C136** (partial). direct_product: all layouts, fewer than 2^31 elements, every interleaving; in a build with assertions other shapes fail one. axpy, axpby, scale: row-major tensors and views (scale fewer than 2^31 elements). scale_row, scale_column: all matrices with non-zero strides. Refuted: axpby and scale on views with gaps change elements outside the view (scale also leaves out elements of it); axpy does not compare shapes.
* **C137** (partial). Proved for all interleavings: symm_gemm = op(B)^T op(A) op(B) when n*n*p*p < 2^31 and asserts are off or B is square; syev; pow = x^alpha on eigenvectors and natural powers. Refuted: from 216x216 matrices on the number of terms overflows int (symm_gemm and pow, undefined behaviour); rectangular B fails an assert; pow ignores the cutoff; the empty matrix is rejected. pow of a complex tensor calls hyev, which does not exist (does not compile).
* **C138** (partial). Proved: gemm (also with an empty inner dimension, unlike the host), gemv, real ger for matrices without gaps in memory, gesv on AMD hardware as X A = B. Refuted: tensors without columns are rejected by gemm; ger conjugates y for complex elements; ger on a view with gaps writes outside its temporary; on NVIDIA hardware gesv reports success and leaves B unchanged.
* **C139** (partial). Proved for all histories: no operation aborts; every byte of a live view is mapped where the view expects it; without failed allocations exactly the memory of live views stays registered, and none when no view is left; which creations are accepted. Refuted: when hipMalloc fails after the mapping was attached, the mapping is never released; the view does not keep the buffer alive; a whole buffer is refused when a part of it was mapped first, but not in the other order.
* **C14** (partial). Tensors in full, throw on last stride != 1, row-major views; refuted for other views.
* **C140** (partial). Proved: what is copied (the first strides[0]*shape[0] bytes), both updates as the exact transfer of that range, and for C-contiguous buffers all elements and nothing else. Refuted: update_D2H overwrites the elements between the rows of a slice; slices of columns read and write past the end of the array; of a Fortran-ordered array only the first column is copied; reversed arrays are rejected and arrays of rank 0 are undefined behaviour.
* **C141** (partial). Distinct labels per tensor, each label of C in A or B, C with at least one label, executions in which no element is added to before it is initialised (any execution if all tensors have the same labels). Refuted: the barrier concerns one block only (ik,ik->i of ones gives 1); ii,i->i uses the first column of A for all matrices; a label only C has gets dimension 0 and nothing is added; for C without labels the kernel clears the scaled value, cp C is lost for all operands.
* **C142** (partial). Element-wise products: every interleaving and all strides. Dot products: executions in which the result is cleared first. Refuted: for all operands with fewer than 32 elements and every element but the first some execution loses its product; dimensions are not compared and B is read out of bounds; no labels at all reads an empty vector.
* **C143** (partial). Outer products: every prefactor and interleaving, last block of labels not empty (better than the host, C81). gemv and gemm: the device computes ab C + ab A B whatever cp, hence right for cp = ab, under the conditions of C82 and C83 and without empty dimensions. Refuted: every element with cp C different from ab C is wrong; fewer summed than kept labels is undefined behaviour as on the host; complex128 with C and one operand transposed multiplies wrong elements; empty dimensions are rejected. Assumed: hipBLAS reads the prefactors from the device pointers it is given (the code never sets the pointer mode).
* **C144** (partial). gemm: square results, transposed operands square, allocations that contain whole columns, no gaps in C if beta = 0 and ldc = k. gemv: transposed or square A, n*inc elements available. Refuted for all contents: C wider than high, A transposed with k < m, B transposed with n < k, gemv of a rectangular matrix that is not transposed (undefined behaviour: device memory too small); taller C, and submatrices whose last column does not end inside the allocation (host memory read or written beyond the allocation); beta = 0 and ldc = k > m overwrites the elements between the columns with junk; the matrices are column-major, unlike those of the CPU backend. Assumed: hipBLAS reads the scalars from the device pointers it is given.
* **C145** (partial). Vectors with n*inc elements available, A not wider than high in an allocation of m columns. Refuted: vectors that end with their last element (undefined behaviour, for all contents), A wider than high, taller A at the end of an allocation; the complex dot and ger conjugate, unlike those of the CPU backend.
* **C146** (partial). syev: n columns of A to their ends inside the allocation. gesv: at most as many right-hand sides as unknowns, n columns available in B. Refuted for all contents: more right-hand sides (device memory too small), fewer at the end of an allocation. uplo = U; the returned info of syev and the pivots are not modelled.
* **C147** (partial). Proved: normal return of the BLAS functions and gesv releases everything; over every history exactly two device blocks per call of syev or heev remain. Refuted: syev and heev never free; every failure point but the first leaks device memory or the integer of the solvers; getrf never returns normally (registers the address of a variable, unregisters the address in it) and its next call from the same stack position fails too.
* **C148** (partial). Eigenvalues, orthonormality and frames for every Hermitian matrix with n > 0; the conjugates of the rows of A are eigenvectors. Refuted: for every Hermitian matrix that is not real some row is not an eigenvector; the lower triangle is used although 'u' is passed; the stride of W is ignored; n = 0 is rejected by LAPACK. The block version of heev is not modelled.
* **C149** (partial). One thread: shape, k-th element is the k-th number drawn, range. Refuted for every shape with elements: two or more threads race on every element and on the engine; two calls give the same numbers. Normalize = true is not modelled (not instantiated anywhere).
* **C15** (proved). Any ranks, label patterns and shapes with contracted labels not repeated in A, over any commutative semiring; tensor and scalar results.
* **C150** (partial). Whenever the call returns (n > 0, mean not zero, one thread): symmetric, definite or semidefinite with the sign of the mean, force_zeros eigenvectors of eigenvalue 0; it returns if the first matrix is regular and the normal distribution does not go on giving zeros. Refuted: never returns if the first matrix is singular; mean = 0 is undefined behaviour; data race with several threads.
* **C151** (proved). xLASSQ is assumed to do what LAPACK documents, at the elements it is given.
* **C152** (proved). Exact arithmetic over an ordered ring; xGESV is assumed to do what LAPACK documents and its info is a ghost flag (the code ignores it); the starting factors and the convergence test are arbitrary; the calls of weight_tensor run their iterations in one order each.
* **C153** (proved). Exact arithmetic; xGESDD is assumed to do what LAPACK documents; the convergence test of tucker_ho_oi is arbitrary. Also shown, outside the range of the property: tucker_ho_oi of a tensor of one mode dereferences an uninitialised pointer; ranks above the dimensions and missing ranks are read past the end of an array instead of being reported.
* **C154** (partial). Proved for sources with their own storage and at least the target's extents, in every order, and for views of the same storage in which no target element is a source element at another index; arrays. Refuted: overlapping views (for every vector, A(1..n) = A(0..n-1) in order fills it with its first element; the result depends on the order); the shapes are not compared (every shorter vector is read past its end, a shorter view yields elements outside it); a shorter array is read past its end.
* **C155** (partial). Exact arithmetic over a ring with an order; xSYEV (at the Gram matrices of the unfoldings) and xGESV are assumed to do what LAPACK documents; the square root and the test for tiny numbers are arbitrary functions. Proved for one thread, and for any number when the rank is at most every dimension. Refuted: a rank larger than a dimension with two or more threads is a data race (C149), so the call never returns.
* **C156** (proved). Proved for any loop that follows the lock protocol, and for einsum and direct_product under the conditions of C91 and C53 (what those results are otherwise is the subject of C91 and C53). The locks are needed: without the lock of the tile an update is lost (example). A and B are other objects than C. Sequentially consistent memory, as all accesses to shared tiles are under locks.
* **C157** (partial). Proved for families of objects made by naming a tensor or a view, for every history. Refuted, for every history: a copy of a view (also to_rank_1_view of a rank-1 view), a view of a pointer and a view of a disk tensor have locks of their own, so any thread can lock them while another holds the tensor; push_block that reallocates while a block is held destroys a locked mutex. Sequentially consistent memory; std::recursive_mutex by its contract. Runtime tensors have no locks.
* **C158** (partial). Proved for the fourteen number codes with aligned items. Refuted: complex items for a real tensor are accepted and lose their imaginary parts; a format of two codes such as dd is read by its first letter, so a vector of records is read as the numbers that lie one after the other. The codes n, N and e are rejected although they are numbers.
* **C159** (partial). isnan and the distance are arbitrary functions. Proved: what is reported and when the program aborts; when the generic algorithm computes the reference, silence means that every element agrees with the sum, for every result of the algorithm under test; no false alarm for the calls of C15; the exceptions of the test for NaN. Refuted: after the first wrong element all later ones are reported; complex results that are not numbers are not reported; results without indices are compared with the same computation, so nothing is ever reported of them; likewise outer and element-wise products, so the wrong results of C16 and C21 pass. Host tensors, without Catch2.
* **C16** (partial). Refuted exactly: C()=A(i,i)B(i) counts the diagonal dim(i) times, and with a second label reads out of range. Proved when the repetition is in B only.
* **C160** (partial). Proved for positive widths, byte by byte, given the texts of single numbers (fmt) and the tests for large and small numbers as functions; names and numbers without newlines; columns fit in an int. Refuted: width 0 divides by zero for every tensor of rank two or more with elements; with a negative width lines are never broken.
* **C161** (partial). Proved byte by byte for block tensors, and for tiled tensors written by println and to streams (given C160's contracts for numbers; texts without newlines and NULs). Refuted: fprintln(FILE *, A, options) of a tiled tensor ignores the options (line 1267 is `fprintln(fp, A.tile(tile_index)), options;`), so that for every tensor with a tile full_output = false prints the elements.
* **C162** (partial). Proved for every program with indices in range on tensors of fewer than 2^31 elements with commutative addition; copies between memories are assumed to succeed and to be complete when the call returns. Refuted: the index one past the end of the first axis passes the range check (`ordinal > size()`) and the access leaves the allocation; only the position in the storage is checked, so an index past the end of a later axis addresses the next row; size() is computed in 32 bits, so in a tensor of 2^32 elements every index but the origin throws. Block device tensors: writing outside the blocks is undefined behaviour (it is ignored on the host), and an index out of range after the first one reads as zero instead of throwing.
* **C163** (partial). Proved for programs without reshaping, copies of views, empty tensors that are mapped or pinned, assignment of uninitialised tensors and memory in core mapped by two views at once; contracts of HIP are assumed and allocations succeed. Refuted: every accepted reshape loses the memory of the dimensions of the source, and a rejected one also loses its elements (the source keeps its dimensions but has no data); assigning to the source of a reshape throws for mapped tensors, and assigning a tensor in core to it writes through a null pointer for mapped and pinned ones; every copy of a device view loses the memory it allocates; a mapped tensor with an empty dimension cannot be created (and the attempt loses memory), and resizing to one makes the destructor end the program; mapping memory twice throws and loses memory; a resize that keeps the number of elements leaves the old shape to the kernels. The copy constructor ignores its mode argument.
* **C164** (partial). Proved for finalize(true) and finalize with a file that can be opened, timers not nested too deep for the report (C62) and, in debug builds, none left running. Refuted: finalize(), which is finalize(false), does nothing at all: no report, and with a GPU every use of the library leaves another memory pool; finalising twice throws (GPU) or dereferences null; finalize(char const*) with a file that cannot be opened writes through a null pointer, finalize(std::string) loses the report silently; in Python set_finalize_arg, documented as selecting the report, assigns to a local variable, so there is never a report and the library is never shut down; the flags of stream_wait are not resized when the library is initialised again for more threads, and waiting throws on the new ones.
* **C165** (partial). Memory: proved for all programs. Elements: proved for programs without reshaping. Views: proved as long as the tensor is not destroyed, reshaped or given other dimensions. Refuted: resizing (or assigning a larger tensor) beyond the capacity frees the memory that the views point into; the reshaping constructor moves the elements before it checks anything, so when it throws the original has lost them and its views dangle; the original of an accepted reshape keeps its dimensions without elements: resizing it to them does nothing and assigning a tensor of that shape to it writes outside its memory.
* **C166** (partial). Proved for positive widths and all ranks but 0. Refuted: a runtime tensor or view of rank 0 cannot be printed with its element, because the function asks for A(0) and the subscript throws that there are too many indices; width 0 divides by zero. The label has one space more than that of a tensor with a static rank.
* **C167** (partial). Proved for threads that set only their own stream, when their work is done, and that do not update their flags at the same time; that waits end, and all_stream_wait() with at most as many threads as at the initialisation, without such conditions. Refuted: set_stream(stream, thread_id) changes the stream of thread_id but the BLAS and solver handles of the calling thread, whose waits then miss its own library calls; a stream set while work is queued; the flags of the threads are bits of the same words, so an update can bring back a flag that another thread has cleared and its next wait is skipped; all_stream_wait() with more threads than at the initialisation, or a failing hipEventRecord, throws with the mutex locked and all threads block for ever; with fewer threads it misses streams.
* **C168** (partial). Proved for every status with a declared exception type, in C++ and in Python; that a call returns exactly on success and what the text names, without conditions. Refuted: a status without a declared type (a newer ROCm, a zero pivot of hipSOLVER) is thrown as the type for unknown statuses, which does not compare equal to the status; the text of hipBLAS errors has the call after `In function: ` and the function in front of the description; the Python classes ErrorMemoryAllocation, ErrorInitializationError, ErrorMapBufferObjectFailed and ErrorInvalidResourceHandle do not exist, because their types are registered before under another name.
* **C169** (partial). Proved for threads, in all programs, with exceptions; for levels when nesting is off or all supported levels are allowed before. Refuted: omp_set_nested(old) restores only whether there is nesting, so a limit of, say, two levels becomes the greatest supported number after a scope; what the program sets inside a scope is lost; scopes that are destroyed in the order they were made leave one thread for ever. OpenMP's settings are a contract (OpenMP 5.0).
* **C17** (partial). Without algebraic laws: generic, element-wise, gemm and gemv paths proved; refuted for the dot and outer paths, which scale by zero instead of clearing.
* **C170** (partial). Proved after every program of element assignments: boxes, sub-tensors with the Ranges before the integers, to_rank_1_view of tensors and of views of whole rows; copies of boxes that end before the last row or begin at the start of a row have the values. Refuted: an integer before a Range puts the offset on the wrong axis; copying a view copies its elements into memory of its own, so the copy (and to_rank_1_view of a view of one dimension) no longer follows the tensor; copying any other box, such as a column other than the first, reads past the allocation; to_rank_1_view of some of the columns has elements of the other columns too. Tensors of fewer than 2^31 elements, addition commutative (C162). HIP calls are contracts and succeed; who frees the memory is not modelled here.
* **C171** (partial). Proved for all programs whose copies name a mode, with the memory. Refuted: the plain copy x(y) has the default mode UNKNOWN, which copies the mode but allocates nothing, so every use of the copy is a null pointer; the conversion to a host tensor moves the name out of the device tensor; copies do not have the name of the original. HIP calls are contracts: with valid pointers they succeed, with the null pointer copies are refused and releases do nothing.
* **C172** (partial). Proved for all operations, types, backends and arguments except three. Refuted: gees<float> calls detail::sgees, which is declared and never defined, so no program that uses it links; trsyl for complex matrices always throws, because its two other branches depend on macros nothing defines. The types of arguments are not modelled (the compiler checks them).
* **C173** (partial). Proved for all pairs of types but one. Refuted: HipCast<hipDoubleComplex, hipComplex> puts the real part in both places, so the imaginary part is wrong for every number whose parts differ. The compiler's conversions between float and double are function arguments that keep zero.
* **C174** (partial). Proved: the search, independence of the order of options of different types, boxes, explicit strides, other shapes of contiguous parents, refusal. Refuted: an Offset with another number of entries than the parent has dimensions, and a Stride with another number than the view has, are ignored silently; a view of another rank of a view with gaps shows elements outside it; the dimension computed for -1 of a matrix counts the row offset as elements and reaches outside the storage. Products of dimensions are exact here, doubles in the code.
* **C175** (partial). Proved for functions that always return real or always complex numbers, none a NumPy scalar of single precision; unsupported data types are refused. Refuted: a function that returns np.float32 or np.complex64 makes every nonempty creation throw, even of a single-precision tensor (the scalar matches the buffer overload of __setitem__); a function whose first value is real and second complex makes creation of a real tensor throw. Rests on pybind11's two-pass choice of overloads and NumPy 2's result types, stated as contracts in the model.
* **C176** (proved). For the classic locale.
* **C177** (proved). For enumerations with a fixed underlying type, which every enum class has.
* **C178** (partial). Look-up, contents and pushes are proved. DISAGREEMENT: `Tensor::operator=` does not copy the name. So every insertion before the end of a vector with spare capacity leaves the names where they were (C178_insert_refuted): the new block's name is lost, and the name of the block at the position stands for the new one; and the copy assignment of block tensors does not copy the names of the blocks (C178_assign_refuted). The vector's insertion is libstdc++'s, as a documented contract.
* **C179** (partial). Proved for 0 < n < 4096 in exact arithmetic: the nodes are exactly the roots of the Laguerre polynomial, ascending, the weights are positive, and the rule is exact against Mathlib's Lebesgue integral for every polynomial of degree below 2n (C179_quadrature_partial); degree 0 is refused (C179_degree_zero). Missing: n of 4096 and more, where the code's companion matrix is wrong (DISAGREEMENT, C70_companion_large_refuted), and rounding (the Newton step, an identity in exact arithmetic, is there for rounding). xSYEV is a function argument with its documented contract; `weight` is proved for tensors, not for views.
* **C18** (proved). Every distribution over threads and every interleaving of single loads and stores, no algebraic law.
* **C180** (partial). Proved below 2^31 elements; the assignment of a device tensor to a host tensor is proved for all sizes (C180_assign_back). DISAGREEMENT: `size()` is computed in an `int`, so that from 2^31 elements on no host tensor becomes a device tensor of its shape (C180_large_refuted). HIP's copies are a documented contract.
* **C181** (partial). Proved for tiles, and for the conversion full shapes, of fewer than 2^31 elements. DISAGREEMENT: `size()` is computed in an `int`, so that a tile of 2^32 elements arrives as zeros (C181_large_refuted). The element-wise copy of the conversion is modelled as direct reads and writes; HIP's copies are a documented contract.
* **C19** (partial). Proved for every block pattern, transposition, shape and row-major operand when every label of C occurs in A or B, no label occurs in all three, and no contracted dimension is 0 (unless C has no elements); each exclusion is refuted.
* **C20** (partial). Proved when every label of C occurs in A or B and no contracted dimension is 0 (unless C has no elements); both exclusions refuted; the vector-times-matrix branch is shown never to be selected.
* **C21** (partial). Proved when C's labels are A's then B's or B's then A's, with C a tensor, or row-major with any views A, B; refuted for interleaved labels and for strided C views.
* **C22** (proved). Any shapes and strides of A and B, over any commutative semiring.
* **C23** (proved). Any shape, any operands, including division of prefactors as the code does it.
* **C24** (partial). Throws iff clash proved for every pattern accepted at compile time, C unchanged; accepted calls return normally for the patterns of C15_einsum, others can fail (C19-C21 refutations).
* **C25** (partial). Proved for all sizes, leading dimensions and transposes with inner dimension != 0 and last stride 1; refuted when the inner dimension is 0 (C is not scaled) and for views with last stride != 1.
* **C26** (partial). gemv proved for non-empty matrices, refuted for matrices with no columns (y not scaled); ger proved in full with its error cases.
* **C27** (partial). Every permutation, dims, prefactors, HPTT or loop, any iteration order; missing identical label lists with strided operands, refuted.
* **C28** (partial). Every rank >= 2, mode and iteration order, plus the bijection of positions; refuted for rank 1 (the result is never written).
* **C29** (partial). Operands labelled (own, common): proved for all ranks and dims > 0, plus rejection on mismatch; refuted for other label orders and empty dims.
* **C30** (proved). Every rank, partition (also empty intervals) and index, including negative indices and rejection.
* **C31** (partial). Every history of writes, reads, tile creations, zero and scaling, plus conversion, assignment and +=/-= of tiled tensors; refuted: self-assignment zeroes the tensor, set_all and +=/-= of a scalar throw when a tile is absent, has_tile with a container rejects negative coordinates.
* **C32** (proved). Every partition, sparsity, transposition and loop order over any commutative semiring; mismatched partitions rejected.
* **C33** (partial). Proved for palindromic grids (all vectors, square grids; true_dot up to rank 2) and exact description of the tiles visited; refuted for a 1x2 grid (dot) and a 2x2x2 grid (true_dot).
* **C34** (partial). Histories of pushes, inserts, writes, reads and scalings; construction, copy, assignment, block_of, dense conversion and compound assignment in any loop order; exact out-of-range behaviour. Refuted for reading an off-block element of a const tensor (dangling reference).
* **C35** (proved). Every list of block sizes, transposition and loop order over any commutative semiring; different numbers of blocks rejected.
* **C36** (partial). Bounded-queue behaviour of put/reset/size/empty/full/[] for every capacity >= 1 and history; refuted that [i] is the i-th oldest value after wrap-around.
* **C37** (partial). Every history of push/pop/pop(elapsed) by any threads refines the log of completed calls; nested programs restore the current timer. Refuted for an unmatched pop, which disables all later timers.
* **C38** (proved). Every byte string; white space as in the C locale.
* **C39** (proved). Requests up to max_size(), which is all std::vector makes; padding of aligned sizes and wrap-around above max_size() shown by witnesses.
* **C40** (partial). Right exactly when step divides stop-start (ordered field and signed integers, < 2^31 elements); otherwise every call overruns its result (proved), also for 2^32 elements. Floating-point rounding not modelled.
* **C41** (partial). Exact characterisation: right iff no dimension is smaller than the first. Refuted otherwise (wrong element or out-of-range write).
* **C42** (proved). All shapes, ranks, contents, schedules; over a commutative semiring (rounding not modelled).
* **C43** (proved). All shapes, ranks and contents; over a commutative semiring.
* **C44** (proved). Two or more non-empty modes: the code itself is wrong for one mode (C28) and for empty dimensions (C29).
* **C45** (proved). Exact arithmetic over a field of characteristic 0. An empty list of coefficients is undefined behaviour in value (proved).
* **C46** (partial). Indices of type int and valid view arguments; wider indices and invalid view arguments are refuted. Lifetime of the viewed tensor is outside the model.
* **C47** (partial). As long as the sub-expressions exist and the element reads are in range; refuted for expressions kept in a variable (dangling pointers) and for operands of different shapes.
* **C48** (partial). All shapes, strides and thread counts while the int counters do not overflow. Refuted: sum of 2^32 ones is 0; max with a NaN depends on the thread count.
* **C49** (proved). 
* **C50** (partial). All texts, histories, sinks and threads. Refuted: a deindent at level 0 is lost, always_print_thread_id has no effect, println cuts lines at NUL.
* **C51** (proved). Fill, compound assignment, element_transform, element: every view, every iteration order, storage outside unchanged; shape mismatch rejected.
* **C52** (partial). Proved for row-major tensors and views; refuted for strided views (scale touches foreign elements, axpy writes out of range).
* **C53** (partial). Proved for beta = 1 or when all tiles of A and B exist, and the exact set of updated elements; refuted for an absent tile with beta = 0.
* **C54** (proved). Dense vectors; the variant with tiled vectors does not compile.
* **C55** (proved). All three code paths.
* **C56** (partial). scale, scale_row, axpy, axpby proved; scale_column refuted (scales the whole block or writes out of bounds).
* **C57** (proved). Same and different block structures, any loop order.
* **C58** (proved). Same block sizes, any rank and loop order.
* **C59** (partial). Every non-zero number; refuted for zero.
* **C60** (partial). Well-nested sections; refuted for sections that overlap (times exchanged).
* **C61** (proved). Any number of threads and any schedule, and absence of deadlock. The unsynchronised read of the indentation string is outside the model.
* **C62** (partial). Up to an indentation of 70; refuted for deeper nesting (throws) and before initialize (null dereference).
* **C63** (partial). sum proved outright. max/min right when some stored element is >= 0 / <= 0; refuted otherwise (implicit zeros ignored) and for no blocks (UB).
* **C64** (partial). Tensors and views, every thread count and interleaving. Block tensors when f(0)=0; refuted for f(0) != 0 (exp, invert): implicit zeros stay zero.
* **C65** (partial). diagonal_like requires the vector to fit the diagonal; refuted otherwise. The rest is proved outright (exact addition).
* **C66** (partial). rmsd and weight_tensor proved outright; norm right for real elements, refuted for complex ones.
* **C67** (proved). Factors are an argument with the orthonormality the SVD provides; exact arithmetic.
* **C68** (proved). Exact arithmetic over an ordered ring; xGESV assumed to meet its contract, its info recorded as a ghost flag; starting factors and convergence test arbitrary.
* **C69** (partial). Sizes and strides below 2^24; refuted beyond, for every rounding of ties. Flattening of matrices is used in C70.
* **C70** (partial). Proved for degree 1 and for multiples of L_n with n < 4096; refuted for series with lower coefficients and, at degree 4098, for the last diagonal element.
* **C71** (proved). Real element types; the function does not compile for complex ones.
* **C72** (partial). Views made with a name; refuted for the views made by operator(), which always report to be full.
* **C73** (partial). What a reversed iterator yields is proved; the claim is refuted for every tensor with at least two elements.
* **C74** (partial). Tensors in full; views for at least as many indices as the rank. Refuted: a view accepts fewer indices in a container, and V(i) with one ptrdiff_t checks nothing.
* **C75** (partial). Ranges with non-negative start below the end, non-empty tensors, views below 2^31 elements. Refuted: negative range bounds throw, Range{-1,b} is taken for the integer b, integers in [-2d,-d) are accepted, every view of an empty tensor throws.
* **C76** (partial). Views whose _size is right (below 2^31 elements); sources do not overlap the destination. Refuted: tensors of equal size and different shape are combined, set_all on a 65536 x 65536 view does nothing.
* **C77** (partial). Refuted for strided TensorViews and for strided runtime views of another element type.
* **C78** (partial). Tensors of the same number of elements. Refuted: strides of the source are ignored, the number of elements is not checked, to_rank_1_view of a rank 0 tensor is empty.
* **C79** (partial). One thread: any labels and strides. Several threads: when every label of A and B is in C. Refuted: two threads lose an update, a scalar C reads C_dims[0] of an empty vector. C does not overlap A or B.
* **C80** (partial). At least one label. Refuted for empty index strings, compiled to a dot product that reads shape[0] of an empty vector.
* **C81** (partial). C_prefactor 0 or 1, blocks of labels, contiguous buffers. Refuted: any other C_prefactor overruns C (bytes counted as elements), interleaved labels are stored transposed, labels missing from C are not summed, an empty last block throws.
* **C82** (partial). As many labels summed as kept. Refuted: more kept than summed reads outside a vector for all tensors, fewer gives a wrong sum, labels of one operand only are ignored.
* **C83** (partial). A keeps as many labels as are summed, B at most as many, transposed operands square. Refuted: more kept labels always undefined, transposed non-square operands rejected or written outside C, labels of one operand only ignored.
* **C84** (partial). Refuted: nothing compares dimensions; only the ranks are checked in the generic plan (C79_rank_mismatch). No positive theorem: the check does not exist.
* **C85** (partial). Proved when the first operand shares a label with C or with the second operand. Refuted when it shares none and C has the labels of B.
* **C86** (partial). Integers that are not negative, slices with step 1 that select something, single integers in range. Proved for all: what is rejected, and that no tuple is undefined. Refuted: negative integers in tuples throw while 2^64-1 is taken for -1; t[k] on a vector is not checked (neighbouring elements, or undefined); empty slices throw.
* **C87** (partial). Tensors with at least one element and fewer than 2^63. Refuted: iterating over a tensor without elements throws; iter(it) is a copy that does not advance it.
* **C88** (partial). Buffers with strides that are multiples of the item size, negative ones included. Refuted: other strides (fields of records) read wrong bytes; assign with an unsupported format throws after changing shape and storage.
* **C89** (partial). Buffers with at least one axis and strides that are non-negative multiples of the item size. Refuted: no axes undefined, other strides rounded.
* **C90** (partial). Aligned buffers, subscripts as in C86. Export and rejections proved for all.
* **C91** (partial). Each label has one partition; label conditions as in C15. Refuted: labels partitioned differently give a wrong result although the dimensions agree and the check passes; the element-wise pattern with a missing tile does not scale C (C53).
* **C92** (partial). Each label has one partition; where the pattern is a dot product the grid reads the same backwards. Refuted: the dot pattern on a 1x2 grid (C33).
* **C93** (partial). Label conditions as in C15, and a label common to A and B; throwing on different blocks proved outside the element-wise pattern. Without a common label no overload exists.
* **C94** (partial). Exact value for every input; right for the dot pattern (blocks may even differ) and where C_prefactor*C is 0. Refuted: elsewhere the scaled C is counted twice.
* **C95** (partial). The vector's label is one of the block tensor's; either order, strided vectors. Refuted: otherwise elements between the blocks are lost without an error; a scalar C is counted twice.
* **C96** (partial). Every element stored in C; every element at all if C is tiled or its labels all belong to one block operand. Label conditions as in C15. Refuted: a block tensor C with two tiled operands is only scaled; with one tiled operand the elements between the blocks are lost without an error.
* **C97** (partial). Vectors, with C_prefactor 1 or all tiles present. Refuted: for matrices block i meets tile (i,0); a missing tile leaves C unscaled.
* **C98** (partial). qr for every shape; q for square matrices. Refuted for all others: with fewer rows than columns q reads outside the storage, with more rows LAPACK rejects the call and the program aborts.
* **C99** (partial). All and Some vectors for every shape. Refuted for Overwrite: with at least as many rows as columns U is zero, with more columns (and two rows or more) the program aborts. LAPACK's positive info (no convergence) is ignored by the code; the theorems take convergence as the contract.

## Axioms per theorem

As printed by `#print axioms` (all three are the standard axioms of Lean; none is added here).

* **(none)**: `C113_dot_shapes`, `C159_scalar_nan_refuted`, `C169_restores`, `C169_set_refuted`, `C173_cast_refuted`, `C173_real`, `C173_roundtrip`, `C72_full_view_refuted`
* **Classical.choice, Quot.sound, propext**: `C01_enumeration`, `C01_index_roundtrip`, `C01_position_roundtrip`, `C02_accepts`, `C02_rejects`, `C02_row_major`, `C03_addresses`, `C04_constructed`, `C04_history`, `C04_write_read`, `C05_size_exactly`, `C05_size_partial`, `C05_size_refuted`, `C06_reshape_decides_partial`, `C06_reshape_ok`, `C07_resize_elements`, `C08_sub_partial`, `C08_sub_write_partial`, `C09_box_read`, `C09_box_writes`, `C100_gesvd_partial`, `C100_svd_refuted`, `C100_vector_refuted`, `C101_det_partial`, `C101_interchange_refuted`, `C101_not_square`, `C101_refuted`, `C101_singular`, `C101_zero_corner_refuted`, `C102_getrf_partial`, `C102_getrf_refuted`, `C102_invert_partial`, `C102_plu_refuted`, `C102_view_refuted`, `C103_norm_partial`, `C103_one_refuted`, `C103_shape_refuted`, `C104_refuted`, `C104_symm_gemm_partial`, `C105_scale_column_partial`, `C105_scale_row_partial`, `C106_empty_refuted`, `C106_lower`, `C106_new_partial`, `C106_stride_refuted`, `C106_syev_partial`, `C106_triangle_refuted`, `C106_values_partial`, `C107_cutoff_refuted`, `C107_eigenvectors_partial`, `C107_empty_refuted`, `C107_inverse_partial`, `C107_power_partial`, `C107_root_partial`, `C108_equation`, `C108_refuted`, `C108_scale_refuted`, `C108_shapes`, `C108_symmetric_partial`, `C109_exact_partial`, `C109_refuted`, `C109_svd_partial`, `C10_view_of_view`, `C110_exact_partial`, `C110_refuted`, `C110_rejects`, `C110_syev_partial`, `C111_double_refuted`, `C111_float_partial`, `C111_geev_partial`, `C111_stride_refuted`, `C112_dot3_partial`, `C112_refuted`, `C113_gemm`, `C113_gemm_shapes`, `C113_gemv`, `C113_gemv_shapes`, `C113_ger`, `C113_ger_shapes`, `C113_scale`, `C114_direct_partial`, `C114_refuted`, `C114_shapes_partial`, `C115_empty_refuted`, `C115_invert_partial`, `C116_order_refuted`, `C116_syev_partial`, `C117_cutoff_refuted`, `C117_eigenvectors_partial`, `C117_inverse_partial`, `C117_power_partial`, `C117_root_partial`, `C118_assign_rejects`, `C118_closed_partial`, `C118_default_args`, `C118_history_partial`, `C118_negative_refuted`, `C118_overlap_refuted`, `C118_single_refuted`, `C119_pointer_refuted`, `C119_read_partial`, `C11_assign`, `C11_assign_other`, `C11_of_view`, `C120_larger_refuted`, `C120_roundtrip_partial`, `C120_smaller_refuted`, `C121_create`, `C121_shape_refuted`, `C122_complex_partial`, `C122_real`, `C122_real_rejects`, `C122_short_refuted`, `C123_complex_partial`, `C123_input_refuted`, `C123_real_partial`, `C123_real_rejects`, `C123_roundtrip_complex`, `C123_roundtrip_real`, `C123_short_refuted`, `C124_partial`, `C124_zero_refuted`, `C125_sort_partial`, `C126_columns_refuted`, `C126_empty_refuted`, `C126_narrow_rejects`, `C126_not_square_refuted`, `C126_solve_partial`, `C126_tall_refuted`, `C126_viewA_refuted`, `C126_viewB_refuted`, `C126_wide_refuted`, `C127_info_partial`, `C127_race_refuted`, `C127_sizes_refuted`, `C127_solve_partial`, `C128_iterations`, `C128_launch`, `C129_scalar_partial`, `C129_set_all_partial`, `C129_set_all_tensor`, `C129_shape_refuted`, `C129_tensor_partial`, `C129_view_left_out`, `C129_view_refuted`, `C129_view_scalar`, `C12_assign_view_partial`, `C12_assign_view_refuted`, `C12_assign_view_smaller`, `C130_assign_partial`, `C130_host_partial`, `C130_large_refuted`, `C130_shape_refuted`, `C130_to_view_partial`, `C130_view_copy_partial`, `C130_view_partial`, `C131_map_partial`, `C131_tensor`, `C131_view_refuted`, `C132_garbage_refuted`, `C132_ignored_refuted`, `C132_max_partial`, `C132_sum_partial`, `C132_sum_refuted`, `C133_dot_partial`, `C133_lost_refuted`, `C133_refuted`, `C133_shape_refuted`, `C133_true_dot_partial`, `C133_true_dot_stored`, `C133_view_refuted`, `C134_contract_partial`, `C134_direct`, `C134_order_exists`, `C134_refuted`, `C134_scalar`, `C135_beta_refuted`, `C135_repeated`, `C135_shape_refuted`, `C135_sort_partial`, `C135_view_refuted`, `C136_axpby_cells`, `C136_axpby_partial`, `C136_axpby_refuted`, `C136_axpy_partial`, `C136_product`, `C136_scale_lines_partial`, `C136_scale_partial`, `C137_assert_refuted`, `C137_cutoff_refuted`, `C137_empty_refuted`, `C137_overflow_refuted`, `C137_pow_overflow_refuted`, `C137_pow_partial`, `C137_power_partial`, `C137_syev_partial`, `C137_symm_gemm_partial`, `C138_empty_refuted`, `C138_gemm_partial`, `C138_gemv_partial`, `C138_ger_cells`, `C138_ger_partial`, `C138_ger_refuted`, `C138_ger_view_refuted`, `C138_gesv_nvidia_refuted`, `C138_gesv_partial`, `C139_accepted`, `C139_all_released_partial`, `C139_mapped`, `C139_no_abort`, `C139_order_refuted`, `C139_released_partial`, `C13_scalar`, `C13_tensor`, `C13_tensor_elements`, `C13_throws`, `C140_contiguous_partial`, `C141_first_only`, `C141_generic_partial`, `C141_not_new_label`, `C141_not_ordered`, `C141_not_repeated`, `C141_not_scalar`, `C141_rank_mismatch`, `C141_runs_exist`, `C142_direct`, `C142_direct_rank`, `C142_dot_lost`, `C142_dot_partial`, `C142_not_checked`, `C142_runs_exist`, `C143_gemm`, `C143_gemm_partial`, `C143_gemv`, `C143_gemv_partial`, `C143_not_more_targets`, `C143_not_prefactor`, `C143_outer`, `C143_runs_exist`, `C144_gemm_gap_refuted`, `C144_gemm_overread_refuted`, `C144_gemm_partial`, `C144_gemm_transposed_refuted`, `C144_gemm_wide_refuted`, `C144_gemv_overread_refuted`, `C144_gemv_partial`, `C144_gemv_rect_refuted`, `C145_axpy_partial`, `C145_axpy_refuted`, `C145_dot_complex_refuted`, `C145_dot_refuted`, `C145_ger_complex_refuted`, `C145_ger_partial`, `C145_ger_refuted`, `C145_scal_partial`, `C146_gesv_few_refuted`, `C146_gesv_many_refuted`, `C146_gesv_partial`, `C146_syev_partial`, `C147_exception_refuted`, `C147_getrf_again_refuted`, `C147_getrf_refuted`, `C147_history`, `C147_release_partial`, `C147_solver_exception_refuted`, `C147_syev_refuted`, `C148_empty_refuted`, `C148_heev_partial`, `C148_lower`, `C148_real_partial`, `C148_refuted`, `C148_stride_refuted`, `C148_triangle_refuted`, `C148_values_partial`, `C149_repeat_refuted`, `C149_tensor_partial`, `C14_flatten`, `C14_view_partial`, `C150_definite_partial`, `C150_hang_refuted`, `C150_mean_refuted`, `C150_race_refuted`, `C150_returns`, `C150_semidefinite_partial`, `C151_sum_square`, `C152_length`, `C152_update_is_weighted_least_squares`, `C152_weighted_parafac_monotone`, `C153_ho_oi`, `C153_ho_svd`, `C153_ho_svd_error`, `C154_assign`, `C154_assign_array`, `C154_assign_array_short`, `C154_assign_shared`, `C154_overlap`, `C154_overlap_order`, `C154_short_view`, `C155_initialize_cp_partial`, `C155_parafac_partial`, `C155_race_refuted`, `C155_weighted_parafac_partial`, `C156_direct`, `C156_einsum`, `C156_ends`, `C156_serial`, `C157_copies_refuted`, `C157_destroy`, `C157_elements_partial`, `C157_exclusive`, `C157_lock`, `C157_push_block_refuted`, `C157_unlock`, `C158_complex_refuted`, `C158_long`, `C158_op_partial`, `C158_records_refuted`, `C158_rejects_complex`, `C158_values_partial`, `C159_complex_nan_refuted`, `C159_detects_partial`, `C159_no_false_alarm`, `C159_same_algorithm_refuted`, `C159_silent`, `C15_contraction`, `C15_contraction_scalar`, `C15_einsum`, `C160_negative_width_refuted`, `C160_print`, `C160_zero_width_refuted`, `C161_block`, `C161_file_options_refuted`, `C161_tiled_partial`, `C162_block_outside`, `C162_block_partial`, `C162_block_range_refuted`, `C162_block_throws`, `C162_end_refuted`, `C162_history_partial`, `C162_large_refuted`, `C162_read_partial`, `C162_throws`, `C163_assign_core_partial`, `C163_assign_partial`, `C163_copied_view_refuted`, `C163_copy_partial`, `C163_empty_refuted`, `C163_mapped_twice_refuted`, `C163_moved_refuted`, `C163_released_partial`, `C163_reshape_refuted`, `C163_resize_partial`, `C163_shapes_partial`, `C163_shapes_refuted`, `C164_default_refuted`, `C164_python_refuted`, `C164_unopenable_refuted`, `C164_use_partial`, `C164_uses_partial`, `C165_defined`, `C165_memory`, `C165_moved_from_refuted`, `C165_reshape_partial`, `C165_reshape_refuted`, `C165_resize_refuted`, `C165_tensors`, `C165_view_elements_partial`, `C165_view_partial`, `C165_write_tensor`, `C166_scalar_refuted`, `C166_tensor_partial`, `C166_view_partial`, `C166_zero_width_refuted`, `C167_all`, `C167_ends`, `C167_lock_refuted`, `C167_skip_partial`, `C167_wait_partial`, `C168_function_refuted`, `C168_solver_text`, `C16_diagonal_of_B_partial`, `C16_overcount`, `C170_copy_partial`, `C170_copy_refuted`, `C170_detached_refuted`, `C170_flat`, `C170_ranges`, `C170_sub_partial`, `C170_sub_refuted`, `C170_view_flat_partial`, `C170_view_flat_refuted`, `C172_dispatch_partial`, `C172_distinct`, `C172_gees_refuted`, `C172_trsyl_refuted`, `C174_auto_partial`, `C174_auto_refused`, `C174_auto_refuted`, `C174_box_partial`, `C174_get`, `C174_ignored_refuted`, `C174_order`, `C174_refused`, `C174_shape_partial`, `C174_shape_refuted`, `C174_strides`, `C175_elements_partial`, `C175_single_refuted`, `C176_injective`, `C176_text`, `C177_ext`, `C177_flags`, `C177_set`, `C178_contents`, `C178_insert_refuted`, `C178_lookup`, `C178_push`, `C179_degree_zero`, `C179_moments_partial`, `C179_quadrature_partial`, `C179_weight`, `C17_gemm_partial`, `C17_gemv_partial`, `C17_generic`, `C180_array_partial`, `C180_assign_back`, `C180_large_refuted`, `C180_round_trip_partial`, `C180_vector_partial`, `C181_large_refuted`, `C181_round_trip_partial`, `C181_to_device_partial`, `C181_to_host_partial`, `C18_any_two`, `C18_deterministic`, `C19_gemm_partial`, `C20_gemv_partial`, `C21_outer_partial`, `C21_outer_views_partial`, `C22_dot`, `C23_elementwise`, `C24_one_dimension_per_label`, `C24_rejects`, `C24_throws_or_returns_partial`, `C25_gemm_partial`, `C26_gemv_partial`, `C26_ger`, `C27_sort_partial`, `C28_bijection`, `C28_unfold_partial`, `C29_khatri_rao_partial`, `C29_rejects`, `C30_cover`, `C30_local`, `C30_throws`, `C30_tile_of`, `C31_add`, `C31_add_scalar_partial`, `C31_assign`, `C31_assign_self`, `C31_assign_self_refuted`, `C31_fresh`, `C31_has_tile`, `C31_has_tile_container_refuted`, `C31_history`, `C31_set_all_partial`, `C31_set_all_throws`, `C31_step`, `C31_sub`, `C31_to_dense`, `C32_gemm`, `C32_gemm_throws`, `C33_dot_partial`, `C33_dot_refuted`, `C33_dot_visited`, `C33_true_dot_partial`, `C33_true_dot_refuted`, `C34_assign`, `C34_block_of`, `C34_compound`, `C34_const_read_partial`, `C34_const_read_refuted`, `C34_construct`, `C34_copy`, `C34_data`, `C34_dense`, `C34_history`, `C34_read`, `C34_read_out`, `C35_gemm`, `C35_gemm_throws`, `C36_queue`, `C36_slots`, `C37_history`, `C37_initialize`, `C37_nested`, `C37_unmatched_refuted`, `C39_request`, `C39_zero`, `C40_field_partial`, `C40_field_refuted`, `C40_int_partial`, `C40_int_refuted`, `C41_identity_partial`, `C42_parafac_reconstruct`, `C43_tucker_reconstruct`, `C44_orders`, `C45_derivative`, `C45_value`, `C45_value_empty`, `C46_convert`, `C46_delta`, `C46_read_partial`, `C47_dangling`, `C47_refuted`, `C48_max_partial`, `C48_min_partial`, `C48_sum_partial`, `C48_sum_refuted`, `C50_balanced`, `C50_lines`, `C50_nul_refuted`, `C50_suppress`, `C50_thread_id_refuted`, `C51_element`, `C51_element_transform`, `C51_view_compound`, `C51_view_fill`, `C52_axpby_partial`, `C52_axpy_partial`, `C52_scale_partial`, `C53_direct_partial`, `C53_direct_refuted`, `C53_direct_updated`, `C54_gemv`, `C55_true_dot`, `C56_axpby`, `C56_axpy`, `C56_scale`, `C56_scale_row`, `C57_dot`, `C57_true_dot`, `C58_direct`, `C59_ndigits_partial`, `C60_overlap_refuted`, `C60_section`, `C62_deep_refuted`, `C62_report_partial`, `C63_max_partial`, `C63_min_partial`, `C63_sum`, `C64_block_partial`, `C64_new_tensor`, `C65_diagonal`, `C65_diagonal_like_partial`, `C65_incremented`, `C65_ones`, `C66_norm_refuted`, `C66_weight`, `C67_core`, `C67_core_of_reconstruction`, `C67_reconstruction_of_core`, `C68_parafac_monotone`, `C68_update_is_least_squares`, `C69_auto_dimension_partial`, `C69_auto_dimension_refuted`, `C70_companion_large_refuted`, `C70_companion_partial`, `C70_companion_refuted`, `C70_companion_throws`, `C71_domain`, `C72_full_view_partial`, `C73_reversed_partial`, `C73_reversed_refuted`, `C74_accepts`, `C74_history`, `C74_rejects`, `C74_view_partial`, `C75_defined`, `C75_ints_partial`, `C75_ints_rejects`, `C75_rejects_partial`, `C75_slice_partial`, `C76_large_refuted`, `C76_tensor_partial`, `C76_view_map`, `C76_view_zip`, `C77_assign`, `C77_assign_strided_partial`, `C77_assign_strided_refuted`, `C77_assign_to_view`, `C77_of_tensor_partial`, `C77_of_view`, `C78_rank1`, `C78_reshape_partial`, `C79_generic_partial`, `C79_generic_threads_partial`, `C79_not_scalar`, `C79_rank_mismatch`, `C80_direct_partial`, `C80_dot_partial`, `C81_not_scaled`, `C81_outer_partial`, `C82_gemv_partial`, `C82_not_more_targets`, `C83_gemm_partial`, `C83_not_more_targets`, `C84_not_checked`, `C85_compile_partial`, `C85_not_total`, `C86_defined`, `C86_element_partial`, `C86_rejects`, `C86_set_partial`, `C86_single_partial`, `C86_view_partial`, `C87_turn_partial`, `C87_walk_partial`, `C88_assign_partial`, `C88_construct_partial`, `C88_op_partial`, `C88_record_refuted`, `C89_view_partial`, `C90_export`, `C90_setitem_partial`, `C90_view_partial`, `C91_einsum_partial`, `C91_elementwise_refuted`, `C91_partition_refuted`, `C92_dot_refuted`, `C92_scalar_partial`, `C93_block_partial`, `C93_throws`, `C94_dot`, `C94_refuted`, `C94_scalar_partial`, `C94_value`, `C95_outer_refuted`, `C95_scalar_partial`, `C95_scalar_refuted`, `C95_scalar_value`, `C95_vector_partial`, `C96_block_refuted`, `C96_mixed_partial`, `C96_offblock_refuted`, `C96_stored`, `C97_matrix_refuted`, `C97_missing_refuted`, `C97_vector_partial`, `C98_q_partial`, `C98_qr`, `C98_tall_refuted`, `C98_wide_refuted`, `C99_all`, `C99_overwrite_refuted`, `C99_overwrite_wide`, `C99_some_partial`
* **Quot.sound, propext**: `C06_empty_refuted`, `C06_two_autos`, `C06_zero_dim_ub`, `C07_history`, `C07_resize`, `C105_range_refuted`, `C112_vector_partial`, `C113_dot`, `C119_history_partial`, `C121_empty_refuted`, `C124_negative`, `C125_more_rejects`, `C128_owner`, `C128_workers`, `C130_view_copy_refuted`, `C139_leak_refuted`, `C139_lifetime_refuted`, `C140_copy_partial`, `C140_fortran_refuted`, `C140_overrun_refuted`, `C140_reversed_refuted`, `C140_update_partial`, `C142_dot_rank`, `C145_dot_partial`, `C145_scal_refuted`, `C146_overread_refuted`, `C149_race_refuted`, `C150_square`, `C153_one_mode_undefined`, `C154_short_source`, `C159_nan_complex_refuted`, `C159_nan_throws`, `C159_reports`, `C159_sticky_refuted`, `C162_axis_refuted`, `C162_create`, `C163_rejected_refuted`, `C164_twice_refuted`, `C164_waits_refuted`, `C165_write`, `C168_attribute_refuted`, `C168_declared_partial`, `C168_message`, `C168_python_partial`, `C168_unlisted_partial`, `C168_unlisted_refuted`, `C169_levels_partial`, `C169_levels_refuted`, `C169_nested`, `C169_order_partial`, `C171_copy_refuted`, `C171_history_partial`, `C171_released_partial`, `C175_mixed_refuted`, `C178_assign_refuted`, `C178_insert_partial`, `C17_elementwise`, `C17_generic_scalar`, `C24_accepts`, `C25_refuted_view`, `C37_threads`, `C38_idempotent`, `C38_sides`, `C38_trim`, `C47_shape`, `C47_value_partial`, `C49_indices`, `C50_lines_exist`, `C51_element_rejects`, `C56_throws`, `C59_zero_refuted`, `C61_whole_lines`, `C66_norm_partial`, `C66_rmsd`, `C79_not_parallel`, `C80_not_scalar`, `C87_iter_refuted`, `C90_setitem_rejects`
* **propext**: `C08_sub_refuted`, `C09_box_outside`, `C09_empty_at_end_ub`, `C119_assign`, `C120_read_rejects`, `C121_like_partial`, `C121_like_refuted`, `C121_open_partial`, `C125_blocks_refuted`, `C125_fewer_refuted`, `C127_count_rejects`, `C129_box_view`, `C130_uninitialised_refuted`, `C136_axpy_refuted`, `C136_product_shapes`, `C136_scale_refuted`, `C140_gap_refuted`, `C143_not_complex`, `C143_not_empty`, `C144_not_row_major`, `C14_view_refuted`, `C14_view_throws`, `C153_ranks_undefined`, `C158_codes`, `C158_op_throws`, `C158_rejects`, `C158_second_code`, `C159_scalar_refuted`, `C167_fewer_refuted`, `C167_flags_refuted`, `C167_set_busy_refuted`, `C167_set_other_refuted`, `C168_returns`, `C169_inside`, `C169_order_refuted`, `C16_refuted`, `C16_refuted_einsum`, `C16_refuted_out_of_range`, `C170_rank1_refuted`, `C171_names_partial`, `C171_names_refuted`, `C171_unknown`, `C173_cast_partial`, `C173_widen_partial`, `C175_types`, `C176_spec`, `C178_refused`, `C17_refuted_dot`, `C17_refuted_outer`, `C180_uninitialised`, `C19_refuted_batch`, `C19_refuted_empty`, `C19_refuted_uncovered`, `C20_refuted_empty`, `C20_refuted_uncovered`, `C20_swap_never_selected`, `C21_refuted_interleaved`, `C21_refuted_view`, `C25_empty_inner`, `C25_refuted`, `C26_gemv_empty`, `C26_gemv_refuted`, `C26_ger_throws`, `C27_refuted`, `C28_rank1_refuted`, `C29_refuted_empty`, `C29_refuted_order`, `C31_add_throws`, `C33_dot_throws`, `C34_compound_throws`, `C36_index_refuted`, `C38_space`, `C39_minimal_refuted`, `C39_overflow_refuted`, `C40_large_refuted`, `C41_refuted`, `C46_view_arguments_refuted`, `C46_wide_index_refuted`, `C48_nan_refuted`, `C50_clamp_refuted`, `C52_axpy_refuted`, `C52_scale_refuted`, `C56_scale_column_refuted`, `C60_untimed`, `C61_progress`, `C62_uninitialised_refuted`, `C63_max_refuted`, `C63_no_blocks_refuted`, `C64_block_refuted`, `C65_diagonal_like_refuted`, `C71_domain_empty`, `C74_view_refuted`, `C75_empty_refuted`, `C75_minus_one_refuted`, `C75_negative_end_refuted`, `C75_wrapped_twice_refuted`, `C76_shape_refuted`, `C78_reshape_refuted`, `C81_not_empty`, `C81_not_general`, `C82_not_general`, `C83_not_general`, `C83_not_transposed`, `C86_empty_refuted`, `C86_negative_refuted`, `C86_single_refuted`, `C87_empty_refuted`, `C88_failed_assign_refuted`, `C89_view_refuted`

## Lines of /repo cited by the definitions of the model

| file | definitions | lines |
|---|---|---|
| src/include/einsums/ArithmeticTensor.hpp | 12 | 22–43, 50–80, 92–196 |
| src/include/einsums/linear_algebra_imp/BaseLinearAlgebra.hpp | 32 | 11–17, 25–31, 42–140, 147–280, 288–290, 297–327, 331–407 |
| src/include/einsums/utility/BitsetEnum.hpp | 11 | 43–86 |
| src/Blas.cpp | 8 | 26–390 |
| src/include/einsums/Blas.hpp | 12 | 99–908 |
| src/include/einsums/tensor_algebra_backends/BlockAlgebra.hpp | 11 | 16–42, 95–166, 171–201, 229–327, 355–420 |
| src/include/einsums/linear_algebra_imp/BlockLinearAlgebra.hpp | 21 | 12–60, 84–99, 135–241, 269–322, 326–341 |
| src/include/einsums/BlockTensor.hpp | 47 | 26–43, 48–65, 71, 76–83, 107–121, 140–154, 181–189, 194–211, 216, 221, 226–250, 256–311, 326–359, 376–406, 423–456, 466–506, 561, 566, 571, 576, 581–605, 614, 634–661, 673–697, 729–744, 1241–1276, 1287–1327 |
| src/include/einsums/tensor_algebra_backends/BlockTileAlgebra.hpp | 8 | 12–164 |
| src/include/einsums/linear_algebra_imp/BlockTiledLinearAlgebra.hpp | 4 | 12–71 |
| src/include/einsums/utility/ComplexTraits.hpp | 1 | 29–30 |
| src/include/einsums/ContainerSort.hpp | 2 | 19–37 |
| src/include/einsums/Decomposition.hpp | 45 | 49–64, 69–95, 100–131, 138–233, 241–330, 339–520, 528–588, 596–681 |
| src/include/einsums/DeviceSort.hpp | 5 | 49–64, 84–182 |
| DeviceTensor.hpp | 114 | 16–1445, 1454–1610, 1625–1742 |
| src/include/einsums/gpu/DeviceTensorView.hpp | 19 | 11–354 |
| src/include/einsums/tensor_algebra_backends/Dispatch.hpp | 43 | 40–507, 546–548, 574, 583, 588–647, 651–731 |
| src/include/einsums/gpu/ElementKernels.hpp | 14 | 14–157, 186, 211, 245 |
| src/include/einsums/ElementOperations.hpp | 27 | 27–42, 77–138, 148–155, 176, 190–290, 305–361, 398, 464, 530 |
| src/include/einsums/tensor_algebra_backends/ElementTransform.hpp | 4 | 20–76 |
| FFT.cpp | 5 | 24–39, 43–70, 83–105 |
| src/include/einsums/FFT.hpp | 4 | 40–46, 56–70 |
| src/include/einsums/FunctionTensor.hpp | 15 | 31–36, 41–58, 102–134, 142–203, 209–325, 335–343 |
| src/include/einsums/linear_algebra_imp/GPULinearAlgebra.hpp | 30 | 33–104, 214–241, 252–347, 357–376, 386–402, 406–439, 535–569, 576–581, 588–593, 644–656, 663–667, 674–678, 722–763, 775–817 |
| src/include/einsums/tensor_algebra_backends/GPUTensorAlgebra.hpp | 20 | 20–137, 141–182, 203–208, 214, 245–246, 269–281, 298–316 |
| src/include/einsums/tensor_algebra_backends/GenericAlgorithm.hpp | 12 | 42–132 |
| src/include/einsums/utility/IndexUtils.hpp | 9 | 16–112, 120–167, 260–294, 303–334, 345–405 |
| src/InitializeFinalize.cpp | 8 | 21–91 |
| src/include/einsums/tensor_algebra_backends/KhatriRao.hpp | 1 | 19–86 |
| src/include/einsums/polynomial/Laguerre.hpp | 13 | 19–199 |
| src/include/einsums/LinearAlgebra.hpp | 26 | 129–142, 276–280, 305–319, 514–531, 546–557, 569–593, 607–613, 642–649, 656–880, 916–956, 961–1006, 1014–1067 |
| src/Memory.cpp | 2 | 13–38 |
| src/Print.cpp | 23 | 31–36, 48–68, 74–80, 86–158, 163–192 |
| src/include/einsums/Print.hpp | 2 | 136–147, 249–276 |
| src/include/einsums/python/PyGPUView.hpp | 2 | 56–69 |
| src/python/PyMain.cpp | 2 | 47–55 |
| src/include/einsums/python/PyTensor.hpp | 44 | 41–51, 59–85, 90–114, 135–174, 613–657, 668–778, 815–855, 907–930, 938–945, 960–978, 1030–1046, 1060–1077, 1091–1112, 1126–1138, 1204–1210, 1366–1396, 1497–1500, 1528–1537, 1585–1593, 1646–1654 |
| src/python/PyTensorAlgebra.cpp | 32 | 22–558, 583–1023 |
| src/include/einsums/python/PyTensorAlgebra.hpp | 45 | 73–130, 137–174, 180–263, 269–326, 336–340, 346–507, 514–596, 623–667, 673–716, 737–768, 772–808, 833–892, 896–936, 962–1089, 1116–1303 |
| src/include/einsums/RuntimeTensor.hpp | 46 | 90–147, 161–187, 211–273, 280–360, 404–531, 539–599, 629–637, 659–664, 671–781, 836–862, 880–890, 928–960, 1022–1034, 1123–1287, 1306–1312, 1399–1407, 1419–1613 |
| src/include/einsums/STL.hpp | 23 | 25–47, 54–59, 97, 231–257, 273–289, 331–353, 359–383, 431, 437–445, 449–454, 519–545, 560–563 |
| src/Section.cpp | 3 | 20–51, 57–76 |
| src/include/einsums/Section.hpp | 1 | 66 |
| src/Sort.cpp | 1 | 21–44 |
| src/include/einsums/Sort.hpp | 1 | 44–110 |
| src/include/einsums/State.hpp | 1 | 15 |
| src/include/einsums/Tensor.hpp | 145 | 65–68, 142, 150–1440, 1453–1492, 1554–1567, 1601–1686, 1690–1742, 1768–1988, 2112–2279 |
| src/include/einsums/utility/TensorBases.hpp | 9 | 161–199 |
| src/include/einsums/tensor_algebra_backends/TileAlgebra.hpp | 24 | 13–153 |
| src/include/einsums/linear_algebra_imp/TiledLinearAlgebra.hpp | 21 | 12–86, 94–322 |
| src/include/einsums/TiledTensor.hpp | 42 | 37–71, 77–131, 168–192, 200–215, 223–239, 247–268, 276–292, 300–327, 336–351, 358–388, 396–416, 424–441, 517, 534–679, 688–721, 779, 811, 816, 838–868, 873–884, 890–909, 1073–1092, 1191–1311 |
| src/Timer.cpp | 22 | 28–46, 50–70, 76–102, 115–213 |
| src/include/einsums/tensor_algebra_backends/Unfold.hpp | 4 | 62–114 |
| src/include/einsums/linear_algebra_imp/UnoptimizedLinearAlgebra.hpp | 18 | 13–50, 95–267 |
| Utilities.hpp | 44 | 17–80, 117–136, 156–216, 242–296, 310–363, 381–399, 418–430, 449–457, 475–479, 515–519, 650–667, 685–708 |
| src/Utils.cpp | 1 | 5–16 |
| src/backends/linear_algebra/vendor/Vendor.cpp | 55 | 199–267, 300–389, 403–438, 451–534, 552–1359 |
| src/include/einsums/_Common.hpp | 8 | 111–126, 139–149, 153–161, 166–176, 180–188, 193–203, 207–215, 220–230, 234–242, 247–257, 261–264 |
| src/include/einsums/_GPUCast.hpp | 3 | 19, 27–227 |
| src/include/einsums/_GPUUtils.hpp | 15 | 46–69, 116–193, 204–228, 276–287, 311–333, 380–391, 460–475, 480–484, 507–528 |
| src/include/einsums/_TensorAlgebraUtilities.hpp | 18 | 38–70, 77–95, 101–119, 142–217, 244–274, 286–289, 308–311, 328–461 |
| einsums/__init__.py | 6 | 35–49 |
| fft.cpp | 6 | 36–125 |
| einsums/utils.py | 18 | 30–47, 51–125 |
