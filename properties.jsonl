{"id": "C01", "title": "Linear position and multi-index are inverse bijections", "statement": "For a row-major tensor shape, converting a linear position below the number of elements to a multi-index and back gives the same position; converting any in-range multi-index to a position and back gives the same multi-index; the position of an in-range multi-index is below the number of elements.", "quantifier": "every rank, every list of dimensions (including zero dimensions), every position below the element count and every in-range multi-index", "why_tests_cant": "shapes and ranks are unbounded; a test can only try a few shapes", "anchors": ["src/include/einsums/utility/IndexUtils.hpp: sentinel_to_indices, indices_to_sentinel, dims_to_strides", "src/Utils.cpp: dims_to_strides"]}
{"id": "C02", "title": "Checked indexing accepts exactly the Python index range", "statement": "The bounds-checked index conversion accepts an index i on an axis of length d iff -d <= i < d, maps negative i to i+d, and otherwise throws; more indices than axes throw; when it succeeds the result is the position of the normalised indices, with missing trailing indices counted as zero.", "quantifier": "every rank, every dimension list, every list of (possibly negative) integer indices of any length", "why_tests_cant": "the boundary holds for all integers and all dimensions", "anchors": ["src/include/einsums/utility/IndexUtils.hpp: indices_to_sentinel_negative_check"]}
{"id": "C03", "title": "Different multi-indices address different elements inside the storage", "statement": "On a freshly constructed tensor every in-range multi-index (each index in [-d,d)) addresses an element inside the tensor's storage, and two in-range multi-indices address the same element iff they normalise to the same non-negative multi-index.", "quantifier": "every rank, shape, and pair of in-range multi-indices", "why_tests_cant": "aliasing must be excluded for every pair of indices of every shape", "anchors": ["src/include/einsums/Tensor.hpp: Tensor(name,dims...), Tensor(Dim), operator()(MultiIndex...)"]}
{"id": "C04", "title": "Reading returns the last write and writes touch nothing else", "statement": "After writing a value at one in-range multi-index of a tensor, reading that multi-index returns the value and reading any other in-range multi-index returns what it returned before; no dimension changes. More generally, after any sequence of in-range writes, each element reads as the last value written to it, or its initial value.", "quantifier": "every tensor, every sequence of writes, every in-range multi-index", "why_tests_cant": "history of writes is unbounded", "anchors": ["src/include/einsums/Tensor.hpp: operator()(MultiIndex...)"]}
{"id": "C05", "title": "size() is the number of elements", "statement": "size() of a tensor or view equals the product of its dimensions.", "quantifier": "every rank and every shape whose element count fits in std::size_t", "why_tests_cant": "the failing shapes have more than 2^31 elements", "anchors": ["src/include/einsums/Tensor.hpp: Tensor::size, TensorView::size", "src/include/einsums/RuntimeTensor.hpp: RuntimeTensorView"]}
{"id": "C06", "title": "Reshape keeps the elements in row-major order or rejects", "statement": "Constructing a tensor from an existing tensor and new dimensions, at most one of which is -1, either yields a tensor with exactly those dimensions (with -1 replaced by the unique value that keeps the element count) whose row-major sequence of elements is that of the source, or throws; it throws for two or more -1 and when no consistent value exists.", "quantifier": "every source tensor and every list of requested dimensions", "why_tests_cant": "all shapes and all placements of -1", "anchors": ["src/include/einsums/Tensor.hpp: Tensor(Tensor&&, std::string, Dims...)"]}
{"id": "C07", "title": "Resize gives the requested shape and keeps the row-major prefix", "statement": "After resize the tensor has the requested dimensions and row-major strides, its storage has exactly that many elements, the first min(old,new) elements in row-major order are unchanged, and resizing to the current shape changes nothing.", "quantifier": "every tensor and every target shape, and every sequence of resizes (storage length always equals the product of the dimensions)", "why_tests_cant": "all shapes, all histories", "anchors": ["src/include/einsums/Tensor.hpp: resize"]}
{"id": "C08", "title": "Sub-tensor by All/Range/integer selects the stated elements", "statement": "T(args...) with each argument an integer, a Range{a,b} or All returns a view whose axes are the Range/All axes in order, with lengths b-a (b<0 meaning b+dim) or dim, and whose element at (j0,j1,...) is the element of T whose i-th index is the integer, a+j, or j according to the i-th argument.", "quantifier": "every tensor, every mix of arguments and every in-range view index", "why_tests_cant": "all mixes of argument kinds at all ranks", "anchors": ["src/include/einsums/Tensor.hpp: Tensor::operator()(MultiIndex...) with AllT/Range"]}
{"id": "C09", "title": "An all-Range view reads and writes exactly the boxed region of the parent", "statement": "For ranges with 0 <= a_i < d_i and a_i <= b_i <= d_i (a negative end counting from the end of the axis) the view T(Range{a0,b0},...) lies inside the parent's storage, its element at j is the parent's element at a+j, writing through it changes exactly that parent element, and no element outside the box can be changed through it.", "quantifier": "every tensor, every in-range list of ranges, every sequence of writes through the view", "why_tests_cant": "all shapes, boxes and write histories", "anchors": ["src/include/einsums/Tensor.hpp: operator()(MultiIndex...) Range-only overload, TensorView::common_initialization"]}
{"id": "C10", "title": "A view of a view selects the composed region", "statement": "Taking a Range view of a Range view is the same as taking one Range view with summed starts: same dimensions, and every index addresses the same element.", "quantifier": "every tensor and every pair of nested in-range boxes", "why_tests_cant": "all nestings", "anchors": ["src/include/einsums/Tensor.hpp: TensorView::common_initialization"]}
{"id": "C11", "title": "Copying and assigning tensors preserves every element", "statement": "Assigning a tensor of the same type makes shape and all elements equal to the source whatever the destination shape was; assigning a tensor of another element type does so, or throws when the shapes differ on a destination of rank other than one with no zero dimension; constructing a tensor from a view yields the view's shape and elements.", "quantifier": "every pair of tensors / every view", "why_tests_cant": "all shapes and contents", "anchors": ["src/include/einsums/Tensor.hpp: operator=(const Tensor&), operator=(const Tensor<TOther,Rank>&), Tensor(const TensorView&)"]}
{"id": "C12", "title": "Assigning a view to a tensor makes the tensor equal to the view", "statement": "After `tensor = view` the tensor has the view's dimensions and elements.", "quantifier": "every destination tensor and every source view", "why_tests_cant": "all shape pairs", "anchors": ["src/include/einsums/Tensor.hpp: operator=(const TensorView<TOther,Rank>&)"]}
{"id": "C13", "title": "Scalar and tensor compound assignment is elementwise for every thread count", "statement": "t *= s, += s, -= s, /= s and t OP= u apply the operation once to every element (tensor operand: throws when element counts differ), whatever the number of OpenMP threads and in whatever order the threads run.", "quantifier": "every tensor, operand, thread count >= 1 and every interleaving of the threads' element updates", "why_tests_cant": "thread counts, schedules and sizes are unbounded", "anchors": ["src/include/einsums/Tensor.hpp: OPERATOR macro (compound assignment)"]}
{"id": "C14", "title": "to_rank_1_view is the row-major flattening", "statement": "to_rank_1_view of a tensor has length equal to its number of elements and its k-th element is the k-th element in row-major order; on a view whose last stride is not 1 it throws.", "quantifier": "every tensor of rank >= 1 and every view", "why_tests_cant": "all shapes", "anchors": ["src/include/einsums/Tensor.hpp: Tensor::to_rank_1_view, TensorView::to_rank_1_view"]}
{"id": "C15", "title": "The generic einsum computes the contraction", "statement": "einsum by the generic algorithm sets every element of C to C_prefactor*C + AB_prefactor * sum over all values of the contracted labels of A*B, where every label of C keeps its value, reads and writes only in-range elements, and leaves A, B and the shape of C unchanged.", "quantifier": "every ranks and labels of A, B, C (labels not repeated within the contracted set), every compatible shape, every content over any commutative ring", "why_tests_cant": "index patterns, ranks and shapes are unbounded", "anchors": ["src/include/einsums/tensor_algebra_backends/GenericAlgorithm.hpp: einsum_generic_algorithm", "src/include/einsums/_TensorAlgebraUtilities.hpp", "src/include/einsums/STL.hpp: intersect_t, difference_t, unique_t"]}
{"id": "C16", "title": "A label repeated in one operand and contracted sums along the diagonal once", "statement": "einsum of C() = A(i,i) B(i) is sum_i A(i,i)*B(i): a contracted label that occurs twice in A is summed over its range once.", "quantifier": "every dimension and contents", "why_tests_cant": "the discrepancy is a factor depending on the dimension", "anchors": ["src/include/einsums/tensor_algebra_backends/Dispatch.hpp: unique_link_dims", "src/include/einsums/tensor_algebra_backends/GenericAlgorithm.hpp"]}
{"id": "C17", "title": "C_prefactor zero overwrites C whatever it held", "statement": "With C_prefactor equal to zero the result of einsum does not depend on the previous contents of C, even when C holds NaN or infinity.", "quantifier": "every pattern, shape and previous contents; no algebraic law on the element type is assumed", "why_tests_cant": "contents unbounded; needs non-ring values such as NaN", "anchors": ["src/include/einsums/tensor_algebra_backends/GenericAlgorithm.hpp", "src/include/einsums/tensor_algebra_backends/Dispatch.hpp"]}
{"id": "C18", "title": "The parallel generic einsum is deterministic", "statement": "The result of the generic einsum does not depend on how the target loop's iterations are distributed over threads or interleaved, down to single loads and stores of C.", "quantifier": "every pattern without repeated-free restrictions on A/B, every thread count, every interleaving", "why_tests_cant": "schedules are unbounded", "anchors": ["src/include/einsums/tensor_algebra_backends/GenericAlgorithm.hpp: EINSUMS_OMP_PARALLEL_FOR loops"]}
{"id": "C19", "title": "The matrix-multiply fast path computes the same contraction", "statement": "Whenever the compile-time test selects the gemm path, the result equals the contraction of C15 for every transposition case.", "quantifier": "every label pattern selected for gemm (any ranks), every compatible shape, every content", "why_tests_cant": "label patterns and ranks are unbounded", "anchors": ["src/include/einsums/tensor_algebra_backends/Dispatch.hpp: is_gemm_possible and the gemm branch", "src/include/einsums/_TensorAlgebraUtilities.hpp: contiguous_positions, is_same_ordering, product_dims, last_stride"]}
{"id": "C20", "title": "The matrix-vector fast path computes the same contraction", "statement": "Whenever the compile-time test selects the gemv path, the result equals the contraction of C15.", "quantifier": "every label pattern selected for gemv, every compatible shape, every content", "why_tests_cant": "label patterns unbounded", "anchors": ["src/include/einsums/tensor_algebra_backends/Dispatch.hpp: is_gemv_normal_possible, gemv branch"]}
{"id": "C21", "title": "The outer-product fast path computes the same contraction", "statement": "Whenever the compile-time test selects the outer-product path, the result equals the contraction of C15.", "quantifier": "every label pattern selected for the outer product, every compatible shape, every content", "why_tests_cant": "label patterns unbounded", "anchors": ["src/include/einsums/tensor_algebra_backends/Dispatch.hpp: outer_product branch"]}
{"id": "C22", "title": "The dot-product fast path computes the same contraction", "statement": "When C is a scalar and A and B have the same label list, the result is C_prefactor*C + AB_prefactor*sum A*B.", "quantifier": "every rank, shape and content", "why_tests_cant": "ranks and shapes unbounded", "anchors": ["src/include/einsums/tensor_algebra_backends/Dispatch.hpp: dot_product branch", "src/include/einsums/linear_algebra_imp/BaseLinearAlgebra.hpp: dot"]}
{"id": "C23", "title": "The element-wise fast path computes the same contraction", "statement": "When A, B and C have the same label list, every element becomes C_prefactor*C + AB_prefactor*A*B.", "quantifier": "every rank, shape and content", "why_tests_cant": "ranks and shapes unbounded", "anchors": ["src/include/einsums/tensor_algebra_backends/Dispatch.hpp: element_wise_multiplication branch", "src/include/einsums/linear_algebra_imp/BaseLinearAlgebra.hpp: direct_product"]}
{"id": "C24", "title": "Inconsistent dimensions are rejected before anything is written", "statement": "With the run-time index check on, einsum throws iff two occurrences of one label in different operands have different dimensions, and then C is unchanged; consistent calls never throw and never access out of range.", "quantifier": "every label pattern and shapes", "why_tests_cant": "patterns and shapes unbounded", "anchors": ["src/include/einsums/tensor_algebra_backends/Dispatch.hpp: EINSUMS_RUNTIME_INDICES_CHECK"]}
{"id": "C25", "title": "Row-major gemm is the matrix product", "statement": "linear_algebra::gemm on row-major matrices, with either or both operands transposed, computes C = beta*C + alpha*op(A)*op(B).", "quantifier": "all sizes, leading dimensions, transposition flags and contents", "why_tests_cant": "sizes unbounded", "anchors": ["src/include/einsums/linear_algebra_imp/BaseLinearAlgebra.hpp: gemm", "src/backends/linear_algebra/vendor/Vendor.cpp: dgemm"]}
{"id": "C26", "title": "Row-major gemv and ger are the matrix-vector product and rank-one update", "statement": "linear_algebra::gemv computes y = beta*y + alpha*op(A)*x and ger computes A = A + alpha*x*y^T on row-major storage with any strides of the vectors.", "quantifier": "all sizes, leading dimensions, increments and contents", "why_tests_cant": "sizes unbounded", "anchors": ["src/include/einsums/linear_algebra_imp/BaseLinearAlgebra.hpp: gemv, ger", "src/backends/linear_algebra/vendor/Vendor.cpp: dgemv, dger, ger_parameter_check"]}
{"id": "C27", "title": "Permuting (sort) puts every element where its labels say", "statement": "sort(C_labels, C, A_labels, A) with the labels of C a permutation of those of A sets C(c) = U*C(c) + alpha*A(a) with a the values of A's labels under C's label values.", "quantifier": "every rank, permutation, shape and content", "why_tests_cant": "ranks and permutations unbounded", "anchors": ["src/include/einsums/Sort.hpp: sort"]}
{"id": "C28", "title": "Unfolding keeps every element exactly once", "statement": "unfold<n> maps element (i_0,...,i_{N-1}) to row i_n and to the column numbered by the row-major position of the remaining indices; it is a bijection between the elements of the source and the result.", "quantifier": "every rank, mode, shape and content", "why_tests_cant": "ranks and shapes unbounded", "anchors": ["src/include/einsums/tensor_algebra_backends/Unfold.hpp: unfold"]}
{"id": "C29", "title": "khatri_rao is the column-wise Kronecker product", "statement": "khatri_rao of A and B over their common labels returns the tensor whose element (a_row, b_row, common) is A(a_row, common)*B(b_row, common).", "quantifier": "every label pattern and shape", "why_tests_cant": "patterns unbounded", "anchors": ["src/include/einsums/tensor_algebra_backends/KhatriRao.hpp: khatri_rao"]}
{"id": "C30", "title": "Each multi-index belongs to exactly one tile", "statement": "tile_of maps an in-range multi-index of a tiled tensor to a tile whose index range contains it, no other tile's range contains it, and index minus tile offset is in range for that tile; an out-of-range index throws.", "quantifier": "every rank, partition of each axis (including empty tiles), and every index", "why_tests_cant": "partitions unbounded", "anchors": ["src/include/einsums/TiledTensor.hpp: TiledTensorBase constructor, tile_of, operator()"]}
{"id": "C31", "title": "A tiled tensor behaves as a dense tensor of zeros plus writes", "statement": "Reading an element of a tiled tensor returns the last value written at that multi-index, or zero when its tile was never created or never written there; creating or inserting tiles on other positions never changes other elements; conversion to a dense tensor agrees with element reads.", "quantifier": "every grid and every sequence of reads, writes, tile creations and scalar operations", "why_tests_cant": "histories unbounded", "anchors": ["src/include/einsums/TiledTensor.hpp: operator(), tile, set_all, operator*=, zero, Tensor conversion"]}
{"id": "C32", "title": "Tiled matrix product equals the dense product", "statement": "gemm on tiled matrices with compatible tilings produces a tiled matrix whose dense form is beta*C + alpha*op(A)*op(B) of the dense forms; tiles that stay absent are zero.", "quantifier": "every tiling, sparsity pattern, transposition and content", "why_tests_cant": "tilings and patterns unbounded", "anchors": ["src/include/einsums/linear_algebra_imp/TiledLinearAlgebra.hpp: gemm"]}
{"id": "C33", "title": "Tiled dot and true_dot visit every tile exactly once", "statement": "dot of two tiled tensors equals the dot of their dense forms.", "quantifier": "every grid shape and sparsity pattern", "why_tests_cant": "grid shapes unbounded", "anchors": ["src/include/einsums/linear_algebra_imp/TiledLinearAlgebra.hpp: dot, true_dot"]}
{"id": "C34", "title": "A block tensor is zero outside its diagonal blocks", "statement": "Block ranges are consecutive and disjoint; an index tuple lies in at most one block; elements whose indices lie in different blocks read as zero; elements inside a block read the block's element; pushing or inserting a block shifts later ranges and keeps contents.", "quantifier": "every sequence of push_block/insert_block and every index tuple", "why_tests_cant": "histories unbounded", "anchors": ["src/include/einsums/BlockTensor.hpp: update_dims, push_block, insert_block, block_of, operator()"]}
{"id": "C35", "title": "Block matrix product equals the dense product", "statement": "gemm of block matrices with equal block sizes is block-diagonal with dense form beta*C + alpha*op(A)*op(B).", "quantifier": "every list of block sizes and contents", "why_tests_cant": "unbounded", "anchors": ["src/include/einsums/linear_algebra_imp/BlockLinearAlgebra.hpp: gemm", "src/include/einsums/BlockTensor.hpp"]}
{"id": "C36", "title": "Circular buffer keeps the last N values in order", "statement": "After any sequence of put and reset the circular buffer retains exactly the last N of the values put since the last reset (there is no get operation): size(), empty(), full() and capacity() are those of this bounded queue, and operator[] finds the retained values in order in consecutive slots modulo N; without resets the p-th value is in slot p mod N.", "quantifier": "every capacity >= 1 and every sequence of operations", "why_tests_cant": "histories unbounded", "anchors": ["src/include/einsums/STL.hpp: CircularBuffer"]}
{"id": "C37", "title": "Timer nesting is balanced and accounts every push", "statement": "With matched push/pop the current timer returns to where it was, each named timer's call count equals the number of completed push/pop pairs on its path, and its total time is the sum of the measured intervals; timers of different paths never mix.", "quantifier": "every balanced sequence of pushes and pops with arbitrary names and durations", "why_tests_cant": "histories and nesting depth unbounded", "anchors": ["src/Timer.cpp: push, pop, initialize", "src/include/einsums/Timer.hpp"]}
{"id": "C38", "title": "Trimming removes exactly the surrounding whitespace", "statement": "trim_copy returns the substring without leading and trailing whitespace: nothing else is removed, the result neither starts nor ends with whitespace, and trimming twice is trimming once.", "quantifier": "every string", "why_tests_cant": "strings unbounded", "anchors": ["src/include/einsums/STL.hpp: ltrim, rtrim, trim, *_copy"]}
{"id": "C39", "title": "Memory returned by the aligned allocator covers the request", "statement": "For every number n of elements from 1 to max_size(), AlignedAllocator::allocate(n) requests a block that holds n elements, whose size is a multiple of the alignment and exceeds the need by at most one alignment, without overflow, and either returns it or throws bad_alloc; zero elements throw.", "quantifier": "every element size, power-of-two alignment >= 8 and number of elements up to max_size(), whatever the system grants", "why_tests_cant": "sizes unbounded", "anchors": ["src/Memory.cpp: allocate_aligned", "src/include/einsums/STL.hpp: AlignedAllocator"]}
{"id": "C40", "title": "arange writes exactly start, start+step, ... below stop", "statement": "arange(start, stop, step) returns the rank-1 tensor of the values start + k*step that are below stop, in order.", "quantifier": "every start, stop, step > 0", "why_tests_cant": "unbounded", "anchors": ["src/include/einsums/Utilities.hpp: arange"]}
{"id": "C41", "title": "create_identity_tensor is one on the diagonal and zero elsewhere", "statement": "create_identity_tensor(d0,...,dn) has value 1 at indices with all components equal and 0 elsewhere.", "quantifier": "every shape", "why_tests_cant": "unbounded", "anchors": ["src/include/einsums/Utilities.hpp: create_identity_tensor"]}
{"id": "C42", "title": "CP reconstruction is the sum of rank-one terms", "statement": "parafac_reconstruct(factors) has element (i_0,...,i_{N-1}) = sum over r of the product of factors[n](i_n, r).", "quantifier": "every rank N, every shape, every CP rank and contents", "why_tests_cant": "unbounded", "anchors": ["src/include/einsums/Decomposition.hpp: parafac_reconstruct"]}
{"id": "C43", "title": "Tucker reconstruction multiplies every mode by its factor", "statement": "tucker_reconstruct(core, factors) has element (i_0,...) = sum over (s_0,...) of core(s_0,...) times the product of factors[n](i_n, s_n).", "quantifier": "every rank, shape, Tucker ranks and contents", "why_tests_cant": "unbounded", "anchors": ["src/include/einsums/Decomposition.hpp: tucker_reconstruct"]}
{"id": "C44", "title": "ALS uses matching unfolding and Khatri-Rao orders", "statement": "The mode-n unfolding of a CP reconstruction equals factors[n] times the transpose of the Khatri-Rao product of the remaining factors in increasing mode order.", "quantifier": "every number of modes >= 2, mode n, non-empty shapes and contents", "why_tests_cant": "unbounded", "anchors": ["src/include/einsums/Decomposition.hpp: parafac", "src/include/einsums/tensor_algebra_backends/Unfold.hpp"]}
{"id": "C45", "title": "Laguerre value and derivative are those of the series", "statement": "value(x, c) is sum_k c_k L_k(x) by the three-term recurrence, and derivative(c, m) is the coefficient list of the m-th derivative.", "quantifier": "every non-empty coefficient list, every tensor of points, every order m, every thread count and interleaving", "why_tests_cant": "unbounded", "anchors": ["src/include/einsums/polynomial/Laguerre.hpp: value, derivative"]}
{"id": "C46", "title": "Integer function tensors index as their definition", "statement": "Reading a function tensor at in-range indices (negative allowed) applies the function to the normalised indices, out-of-range throws, and a view with fixed indices, ranges and All evaluates the function at the composed index.", "quantifier": "every shape, index list and view specification", "why_tests_cant": "unbounded", "anchors": ["src/include/einsums/FunctionTensor.hpp: fix_indices, operator(), apply_view"]}
{"id": "C47", "title": "Delayed tensor arithmetic equals elementwise arithmetic", "statement": "Reading an expression built from tensors, scalars and other expressions with + - * / and unary minus at an index, at any later time, gives the expression evaluated on the elements its tensors have at that index, and the expression has the shape of its tensors.", "quantifier": "every expression tree, every program of building, copying and destroying expressions and writing to tensors", "why_tests_cant": "expression trees unbounded", "anchors": ["src/include/einsums/ArithmeticTensor.hpp"]}
{"id": "C48", "title": "Sum, max and min over a tensor visit every element once", "statement": "sum(A) is the sum of all elements of a tensor or strided view, max(A) its largest and min(A) its smallest element, for every thread count.", "quantifier": "every shape, strides, contents over a linear order / commutative monoid, every thread count", "why_tests_cant": "unbounded", "anchors": ["src/include/einsums/ElementOperations.hpp: sum, max, min, omp_loop"]}
{"id": "C49", "title": "Elements read by the Python index iterator are each multi-index once", "statement": "Iterating TensorIndices of a tensor yields every multi-index exactly once in row-major order.", "quantifier": "every shape", "why_tests_cant": "unbounded", "anchors": ["einsums/utils.py: TensorIndices"]}
{"id": "C50", "title": "Indentation and line output", "statement": "Printing a text writes each of its lines exactly once, in order, preceded by the thread header (in parallel regions) and the current indentation of four spaces per level; well-nested indent/deindent calls restore the state; the level is never negative and depends on the master thread only; suppressed output writes nothing.", "quantifier": "every text, every sequence of indent/deindent/println", "why_tests_cant": "histories unbounded", "anchors": ["src/Print.cpp: indent, deindent, println"]}
{"id": "C51", "title": "Element-wise operations through a view touch exactly the view's elements", "statement": "view = v, view OP= v, element_transform(&C, op) and element(op, &C, T...) apply the operation exactly once to every element of the tensor or view and leave every other element of the underlying storage unchanged, whatever the order in which the parallel loop visits the elements; element rejects operands of another shape.", "quantifier": "every well-formed strided view, every operation, every iteration order", "why_tests_cant": "shapes, strides and thread schedules are unbounded", "anchors": ["src/include/einsums/Tensor.hpp: TensorView::operator=, OPERATOR", "src/include/einsums/tensor_algebra_backends/ElementTransform.hpp: element_transform, element"]}
{"id": "C52", "title": "scale, axpy and axpby act elementwise", "statement": "scale(a, &A) multiplies every element of A by a; axpy(a, X, &Y) sets Y = Y + aX and axpby(a, X, b, &Y) sets Y = bY + aX elementwise; nothing else is touched.", "quantifier": "every shape of tensors and views, every scalar", "why_tests_cant": "unbounded shapes; the routines flatten to one BLAS call using the outermost stride", "anchors": ["src/include/einsums/linear_algebra_imp/BaseLinearAlgebra.hpp: scale, axpy, axpby"]}
{"id": "C53", "title": "Tiled direct product equals the dense one", "statement": "direct_product(alpha, A, B, beta, &C) on tiled tensors with equal tilings sets every element of C to beta*C(i) + alpha*A(i)*B(i), absent tiles counting as zeros.", "quantifier": "every rank, tiling, sparsity pattern of the three tensors, scalars and order of the parallel loop", "why_tests_cant": "tilings and sparsity patterns unbounded", "anchors": ["src/include/einsums/linear_algebra_imp/TiledLinearAlgebra.hpp: direct_product"]}
{"id": "C54", "title": "Tiled matrix times dense vector", "statement": "gemv with a tiled matrix and dense vectors sets y(i) = beta*y(i) + alpha*sum over l of op(A)(i,l)*z(l), absent tiles counting as zeros.", "quantifier": "every tiling, sparsity pattern, transposition, stride of z and order of the parallel loop", "why_tests_cant": "tilings unbounded; every iteration writes through a view into the same vector", "anchors": ["src/include/einsums/linear_algebra_imp/TiledLinearAlgebra.hpp: gemv"]}
{"id": "C55", "title": "true_dot conjugates its first argument", "statement": "true_dot(A, B) is the sum over all multi-indices of conj(A(i))*B(i), for vectors, full tensors and strided views.", "quantifier": "every rank, shape and strides, any commutative semiring with any conjugation", "why_tests_cant": "three code paths that must agree for every shape", "anchors": ["src/include/einsums/linear_algebra_imp/BaseLinearAlgebra.hpp: true_dot", "src/include/einsums/utility/ComplexTraits.hpp: IsComplexV"]}
{"id": "C56", "title": "scale, scale_row, scale_column, axpy and axpby on block tensors act as on the dense form", "statement": "scale, axpy and axpby on block tensors with the same block sizes change the dense form elementwise as for dense tensors; scale_row and scale_column scale exactly one row or column; axpy and axpby of different block sizes throw.", "quantifier": "every rank, list of block sizes, contents, scalars and order of the parallel loop", "why_tests_cant": "block structures and contents unbounded", "anchors": ["src/include/einsums/linear_algebra_imp/BlockLinearAlgebra.hpp: scale, scale_row, scale_column, axpy, axpby"]}
{"id": "C57", "title": "dot and true_dot of block tensors equal the dense sums", "statement": "dot(A, B) is the sum of A(i)*B(i) over the dense forms, whether or not the block structures agree; true_dot conjugates A.", "quantifier": "every rank, every pair of block structures with the same total dimension, any commutative semiring", "why_tests_cant": "the code takes a dense detour when structures differ", "anchors": ["src/include/einsums/linear_algebra_imp/BlockLinearAlgebra.hpp: dot, true_dot"]}
{"id": "C58", "title": "Direct product of block tensors equals the dense one", "statement": "direct_product(alpha, A, B, beta, &C) on block tensors with the same block sizes sets every element of C to beta*C + alpha*A*B.", "quantifier": "every rank, block structure, contents, scalars, loop order", "why_tests_cant": "unbounded", "anchors": ["src/include/einsums/linear_algebra_imp/BlockLinearAlgebra.hpp: direct_product"]}
{"id": "C59", "title": "ndigits counts decimal digits", "statement": "ndigits(n) is the number of decimal digits of n, plus one for the sign when n is negative.", "quantifier": "every integer", "why_tests_cant": "integers unbounded", "anchors": ["src/include/einsums/STL.hpp: ndigits"]}
{"id": "C60", "title": "A Section accounts its own lifetime once", "statement": "A Section around any well-nested timed program adds exactly one call with the time from its construction to its first end to the timer named by its trimmed name, whether it is ended explicitly, destroyed, or both, and leaves the current timer as it was; without timer it changes nothing.", "quantifier": "every reachable timer state, name, clock readings and nested program", "why_tests_cant": "nesting and histories unbounded", "anchors": ["src/Section.cpp: Section, end", "src/include/einsums/Section.hpp", "src/Timer.cpp"]}
{"id": "C61", "title": "Lines printed by several threads never mix", "statement": "When any number of threads print at the same time, the output consists of whole lines, each with its header, the lines of each thread in its own order, and printing never deadlocks.", "quantifier": "every number of threads, lines and schedule", "why_tests_cant": "schedules unbounded", "anchors": ["src/Print.cpp: print_line, fprint_line"]}
{"id": "C62", "title": "The timer report lists every timer once, in order", "statement": "The timer report has exactly one line per timer with its name, time and number of calls, indented by its nesting; a timer precedes those inside it and siblings come in order of first use; the indentation level is restored.", "quantifier": "every history of timer calls and every indentation level", "why_tests_cant": "histories and trees unbounded", "anchors": ["src/Timer.cpp: print_timer_info, report"]}
{"id": "C63", "title": "Sum, max and min of a block tensor", "statement": "sum(T), max(T) and min(T) of a block tensor are the sum, the largest and the smallest of all its elements, the implicit zeros included.", "quantifier": "every number of blocks, block sizes, rank, contents, thread counts and schedules", "why_tests_cant": "unbounded", "anchors": ["src/include/einsums/ElementOperations.hpp: sum, max, min (BlockTensor overloads)"]}
{"id": "C64", "title": "abs, invert, exp and scale return a new tensor with the function applied to every element", "statement": "new_tensor::abs/invert/exp/scale return a fresh tensor of the argument's shape whose elements are the function of the argument's elements; the argument is unchanged.", "quantifier": "every shape, strides, contents, thread count and interleaving", "why_tests_cant": "unbounded; schedules", "anchors": ["src/include/einsums/ElementOperations.hpp: new_tensor, omp_loop"]}
{"id": "C65", "title": "Incremented, ones, diagonal and diagonal-like tensors", "statement": "create_incremented_tensor counts the elements in row-major order from 0 by 1 (1+i for complex types); create_ones_tensor is 1 everywhere; diagonal(v) and diagonal_like(v, like) carry v on the diagonal and 0 elsewhere, whatever the fresh memory contained.", "quantifier": "every shape, vector and content of fresh memory", "why_tests_cant": "unbounded", "anchors": ["src/include/einsums/Utilities.hpp: create_incremented_tensor, create_ones_tensor, diagonal, diagonal_like"]}
{"id": "C66", "title": "Norm, RMSD and weighting of tensors", "statement": "norm(T) is the 2-norm of the elements, rmsd(A, B) the root of the mean squared difference for every thread count, and weight_tensor(T, w) multiplies every slice of the first axis by its weight, a vector of the wrong length ending the program.", "quantifier": "every shape, strides, contents, distribution of iterations over threads", "why_tests_cant": "unbounded; schedules", "anchors": ["src/include/einsums/Decomposition.hpp: norm, rmsd, weight_tensor"]}
{"id": "C67", "title": "The Tucker core inverts the reconstruction for orthonormal factors", "statement": "The core tucker_ho_svd forms from its factors is the tensor multiplied along each axis by the transposed factor; with orthonormal columns the core of a reconstruction is the original core, and a tensor that is a Tucker product of the factors is reconstructed exactly from its core.", "quantifier": "every number of modes, shapes, ranks and contents over a commutative ring", "why_tests_cant": "unbounded", "anchors": ["src/include/einsums/Decomposition.hpp: tucker_ho_svd, tucker_reconstruct"]}
{"id": "C68", "title": "Alternating least squares never increases the error", "statement": "Each update of parafac replaces one factor by a least squares optimum given the others, and the factors parafac returns have a squared error at most that of the starting factors, provided LAPACK solved every system.", "quantifier": "every tensor of two or more non-empty modes, CP rank, starting factors, number of iterations and outcome of the convergence test", "why_tests_cant": "iterations and inputs unbounded", "anchors": ["src/include/einsums/Decomposition.hpp: parafac", "src/include/einsums/linear_algebra_imp/BaseLinearAlgebra.hpp: gesv"]}
{"id": "C69", "title": "A view with dimension -1 extends to the end", "statement": "A rank 1 view created with dimension -1, an offset o and a stride s over a contiguous tensor of N elements has exactly the elements o, o+s, o+2s, ... below N, each at its position.", "quantifier": "every size, offset and positive stride, any rounding of ties", "why_tests_cant": "the dimension is computed in float arithmetic: only a proof covers every size and stride", "anchors": ["src/include/einsums/Tensor.hpp: TensorView::common_initialization (dimension -1)"]}
{"id": "C70", "title": "The eigenvalues of the companion matrix are the roots of the series", "statement": "companion(c) for a series of degree n >= 1 is an n x n matrix whose eigenvalues are exactly the roots of the series; series with fewer than two coefficients are refused.", "quantifier": "every coefficient list with a non-zero last coefficient, every schedule of the assignments", "why_tests_cant": "every degree", "anchors": ["src/include/einsums/polynomial/Laguerre.hpp: companion"]}
{"id": "C71", "title": "get_domain is the least and the greatest element", "statement": "get_domain(x) holds the smallest and the largest element of x, both of which occur in x.", "quantifier": "every non-empty vector, every distribution of the iterations over threads, every order of the critical sections", "why_tests_cant": "schedules", "anchors": ["src/include/einsums/polynomial/Utilities.hpp: get_domain"]}
{"id": "C72", "title": "A view of a function tensor knows whether it is a full view", "statement": "A view of a function tensor that reports to be a full view of the underlying tensor has its shape and the same value at every index.", "quantifier": "every view", "why_tests_cant": "every shape, offset and template", "anchors": ["src/include/einsums/FunctionTensor.hpp: FunctionTensorView, full_view_of_underlying"]}
{"id": "C73", "title": "Reversed index iteration", "statement": "reversed(TensorIndices(t)) and TensorIndices(t, reverse=True) yield every multi-index once, in reverse row-major order.", "quantifier": "every shape", "why_tests_cant": "unbounded", "anchors": ["einsums/utils.py: TensorIndices"]}
{"id": "C74", "title": "Runtime tensors check their indices", "statement": "Reading or writing an element of a RuntimeTensor or RuntimeTensorView with as many indices as its rank, each in range or negative and in range when counted from the end, accesses the element they denote; any other indices throw, and after any history of accesses, including rejected ones, every element holds the last value written to it.", "quantifier": "every rank, shape, index list of any length, history of writes", "why_tests_cant": "unbounded", "anchors": ["src/include/einsums/RuntimeTensor.hpp: RuntimeTensor::operator(), RuntimeTensorView::operator()", "src/include/einsums/utility/IndexUtils.hpp: indices_to_sentinel_negative_check"]}
{"id": "C75", "title": "Slices of runtime tensors", "statement": "Subscripting a runtime tensor or view with integers, ranges and All gives a view of the selected shape whose elements are the selected ones, for reading and writing; missing trailing arguments select the whole axis; arguments out of range or too many of them throw.", "quantifier": "every rank, shape, argument list", "why_tests_cant": "unbounded", "anchors": ["src/include/einsums/RuntimeTensor.hpp: RuntimeTensor::operator(), RuntimeTensorView::operator() with Range and AllT"]}
{"id": "C76", "title": "Filling and compound assignment of runtime tensors and views", "statement": "zero, set_all, and compound assignment of numbers, tensors and views to a runtime tensor or view update exactly the elements of the destination, each once with the matching element of the source, for every order of the parallel loop; operands of different shapes throw.", "quantifier": "every shape, strides, contents, schedule", "why_tests_cant": "schedules; unbounded sizes", "anchors": ["src/include/einsums/RuntimeTensor.hpp: zero, set_all, operator OP"]}
{"id": "C77", "title": "Construction and assignment of runtime tensors", "statement": "A runtime tensor constructed from or assigned a tensor or a view has its shape and elements, whatever it held before; assigning to a runtime view changes exactly the elements of the view and throws when shapes differ.", "quantifier": "every shape, strides, contents, schedule", "why_tests_cant": "unbounded; schedules", "anchors": ["src/include/einsums/RuntimeTensor.hpp: constructors, operator="]}
{"id": "C78", "title": "Runtime views with other dimensions", "statement": "A runtime view of a tensor or view created with dimensions of the same number of elements, and to_rank_1_view, present the elements in row-major order; other dimensions are refused.", "quantifier": "every shape and view", "why_tests_cant": "unbounded", "anchors": ["src/include/einsums/RuntimeTensor.hpp: RuntimeTensorView(other, dims), to_rank_1_view"]}
{"id": "C79", "title": "Python einsum: the generic plan", "statement": "A plan compiled from Python index strings and executed on three buffers sets C[c] to C_prefactor*C[c] + AB_prefactor times the sum of A[a]*B[b] over every index missing from C, for any index strings that fit no BLAS call and for strided buffers, on any number of threads; it changes nothing else and rejects buffers of another rank.", "quantifier": "every index string (repeated indices included), shape, stride pattern, element values, number of threads and interleaving", "why_tests_cant": "interleavings and shapes are unbounded; a lost update appears only under some schedules", "anchors": ["src/python/PyTensorAlgebra.cpp: compile_plan, get_dim_ranges_for_many", "src/include/einsums/python/PyTensorAlgebra.hpp: PyEinsumGenericPlan::execute_generic"]}
{"id": "C80", "title": "Python einsum: dot and element-wise products", "statement": "Executing a plan for equal index strings gives the sum of products (scalar C) or the element-wise product (same indices on C), scaled by the prefactors, for buffers of any stride and however OpenMP divides the iterations.", "quantifier": "every index string without repetition, shape, strides, values, division of the iterations", "why_tests_cant": "unbounded shapes and divisions", "anchors": ["src/include/einsums/python/PyTensorAlgebra.hpp: PyEinsumDotPlan::execute_imp, PyEinsumDirectProductPlan::execute_imp"]}
{"id": "C81", "title": "Python einsum: outer products", "statement": "Executing a plan for operands without common index gives C_prefactor*C + AB_prefactor*A*B (summed over indices missing from C).", "quantifier": "every pair of index strings without common index, every prefactor, shape and values", "why_tests_cant": "unbounded shapes; prefactors other than 0 and 1 corrupt memory silently", "anchors": ["src/include/einsums/python/PyTensorAlgebra.hpp: PyEinsumGerPlan::execute_imp", "src/python/PyTensorAlgebra.cpp: compile_plan"]}
{"id": "C82", "title": "Python einsum: matrix-vector products", "statement": "Executing a plan the compiler turns into a matrix-vector product gives the contraction over every index missing from C.", "quantifier": "every index strings compiled to a matrix-vector plan, every shape, values and prefactors", "why_tests_cant": "unbounded numbers of indices and shapes", "anchors": ["src/include/einsums/python/PyTensorAlgebra.hpp: PyEinsumGemvPlan::execute_imp", "src/python/PyTensorAlgebra.cpp: compile_plan"]}
{"id": "C83", "title": "Python einsum: matrix products", "statement": "Executing a plan the compiler turns into a matrix product gives the contraction over every index missing from C.", "quantifier": "every index strings compiled to a matrix-product plan, every arrangement of the blocks, shape, values and prefactors", "why_tests_cant": "unbounded numbers of indices and shapes; square test matrices hide exchanged dimensions", "anchors": ["src/include/einsums/python/PyTensorAlgebra.hpp: PyEinsumGemmPlan::execute_imp", "src/python/PyTensorAlgebra.cpp: compile_plan"]}
{"id": "C84", "title": "Python einsum: inconsistent dimensions are rejected", "statement": "Executing a plan on buffers that give one index two different dimensions raises an exception instead of reading outside a buffer.", "quantifier": "every plan and every shapes", "why_tests_cant": "unbounded; an overrun may go unnoticed", "anchors": ["src/python/PyTensorAlgebra.cpp: get_dim_ranges_for_many", "src/include/einsums/python/PyTensorAlgebra.hpp: execute_generic, PyEinsumDotPlan::execute_imp"]}
{"id": "C85", "title": "Python einsum: every specification compiles or is rejected", "statement": "compile_plan returns a plan or raises an exception for every three index strings.", "quantifier": "every three strings", "why_tests_cant": "infinitely many strings", "anchors": ["src/python/PyTensorAlgebra.cpp: compile_plan"]}
{"id": "C86", "title": "Python subscripts follow Python's rules", "statement": "t[args] with integers and slices returns the element, or the view of the elements, that Python's indexing rules select, and t[args] = x changes exactly those; subscripts that are out of range, too long or unsupported raise an exception; none is undefined.", "quantifier": "every tensor or view and every tuple, integer or slice", "why_tests_cant": "the subscripts and layouts are unbounded; a wrong case reads memory of another row without failing", "anchors": ["src/include/einsums/python/PyTensor.hpp: PyTensor::__getitem__, PyTensor::__setitem__, PyTensorView::__getitem__, PyTensorView::__setitem__, subscript_to_val, subscript_to_view"]}
{"id": "C87", "title": "Iterators over runtime tensors visit every element once, in order", "statement": "Iterating over a tensor or view returns its elements in row-major order and then stops for ever; reversed() in the opposite order, also from the middle; an iterator is its own iterator.", "quantifier": "every shape, layout and number of calls", "why_tests_cant": "the state is a counter and index conversions at all ranks; the end conditions differ by direction", "anchors": ["src/include/einsums/python/PyTensor.hpp: PyTensorIterator::next, PyTensorIterator::reversed, PyTensorIterator::iter"]}
{"id": "C88", "title": "Tensors take shape and items from buffers", "statement": "A tensor constructed from or assigned a buffer has the buffer's shape and, at each index, its converted item; t OP= buffer combines element by element; other shapes and formats that are not supported raise an exception and leave the tensor unchanged.", "quantifier": "every buffer layout (also reversed and strided arrays), every schedule of the parallel loop", "why_tests_cant": "strides are arbitrary integers; only memory that happens to be wrong shows", "anchors": ["src/include/einsums/python/PyTensor.hpp: PyTensor::PyTensor, PyTensor::assign_values, PyTensor::copy_and_cast_assign, PyTensor::operator*="]}
{"id": "C89", "title": "Views of buffers share the exporter's memory", "statement": "A view constructed from a buffer of the same element type has the buffer's layout over the same memory; another type raises an exception.", "quantifier": "every layout of the exporter", "why_tests_cant": "the layouts are unbounded; a wrong stride reads other memory without failing", "anchors": ["src/include/einsums/python/PyTensor.hpp: PyTensorView::PyTensorView", "src/include/einsums/RuntimeTensor.hpp: RuntimeTensorView"]}
{"id": "C90", "title": "Buffers assigned to views and slices change exactly the selected elements", "statement": "v.assign(buffer), v OP= buffer and v[args] = buffer combine each selected element with the item of the same index and change nothing else; other shapes raise an exception; the buffer a tensor or view exports has its shape and elements.", "quantifier": "every view, subscript, buffer layout and schedule", "why_tests_cant": "elements outside the view lie between those inside; the loop is parallel", "anchors": ["src/include/einsums/python/PyTensor.hpp: PyTensorView::assign_values, PyTensorView::__setitem__, export_tensor, export_tensor_view"]}
{"id": "C91", "title": "einsum on tiled tensors is the contraction", "statement": "einsum on three tiled tensors sets every element of C to C_prefactor*C + AB_prefactor * the sum of A*B over all values of the labels missing from C, whatever tiles exist (a missing tile is zero) and however the tiles are scheduled, or throws; the tiling of C is kept.", "quantifier": "every label pattern, rank, partition (also zero-sized tiles), set of existing tiles, prefactors and order of the parallel loop", "why_tests_cant": "unbounded grids, patterns and schedules; tiles that exist on one side only are a combinatorial set", "anchors": ["src/include/einsums/tensor_algebra_backends/TileAlgebra.hpp: einsum_special_dispatch", "src/include/einsums/_TensorAlgebraUtilities.hpp: get_grid_ranges_for_many", "src/include/einsums/tensor_algebra_backends/Dispatch.hpp: einsum"]}
{"id": "C92", "title": "einsum of tiled tensors into a scalar", "statement": "einsum of two tiled tensors with a scalar C gives C_prefactor*C + AB_prefactor * the sum of A*B over all values of the labels, whatever tiles exist and whatever the order of the reduction.", "quantifier": "every label pattern, partition, set of tiles, prefactors and order", "why_tests_cant": "unbounded grids and schedules", "anchors": ["src/include/einsums/tensor_algebra_backends/TileAlgebra.hpp: einsum_special_dispatch", "src/include/einsums/tensor_algebra_backends/Dispatch.hpp: einsum"]}
{"id": "C93", "title": "einsum on block tensors is the contraction", "statement": "einsum on three block tensors sets every element of C, inside a block or between blocks, to C_prefactor*C + AB_prefactor * the sum of A*B over all values of the labels missing from C, however the blocks are scheduled; if the blocks of the three tensors differ it throws.", "quantifier": "every label pattern with a label common to A and B, every rank, number and size of blocks (also size 0), prefactors and order of the parallel loop", "why_tests_cant": "unbounded block lists, ranks and schedules; that the elements between the blocks need no work is an argument about every label pattern", "anchors": ["src/include/einsums/tensor_algebra_backends/BlockAlgebra.hpp: einsum_special_dispatch", "src/include/einsums/tensor_algebra_backends/Dispatch.hpp: einsum"]}
{"id": "C94", "title": "einsum of block tensors into a scalar", "statement": "einsum of two block tensors with a scalar C gives C_prefactor*C + AB_prefactor * the sum of A*B over all values of the labels, whatever the order of the reduction.", "quantifier": "every label pattern, block list, prefactors and order", "why_tests_cant": "unbounded block lists and schedules", "anchors": ["src/include/einsums/tensor_algebra_backends/BlockAlgebra.hpp: einsum_special_dispatch", "src/include/einsums/tensor_algebra_backends/Dispatch.hpp: einsum"]}
{"id": "C95", "title": "einsum of a vector and a block tensor", "statement": "einsum of a dense vector and a block tensor, in either order, into a block tensor or a scalar, gives C_prefactor*C + AB_prefactor * the sum of the products over all values of the contracted labels.", "quantifier": "every label pattern, vector (also a strided view), block list, prefactors and order", "why_tests_cant": "unbounded block lists, ranks and schedules", "anchors": ["src/include/einsums/tensor_algebra_backends/BlockAlgebra.hpp: einsum_special_dispatch"]}
{"id": "C96", "title": "einsum on block and tiled tensors together", "statement": "einsum with some operands block tensors and some tiled tensors sets every element of C to C_prefactor*C + AB_prefactor * the sum of A*B over all values of the labels missing from C, whatever the order of the parallel loop.", "quantifier": "every label pattern other than the element-wise product, every mixture of block and tiled operands, every partition of the labels, set of existing tiles, prefactors and order", "why_tests_cant": "unbounded ranks, grids and schedules; which combinations of blocks and tiles must be visited depends on the labels", "anchors": ["src/include/einsums/tensor_algebra_backends/BlockTileAlgebra.hpp: einsum_special_dispatch", "src/include/einsums/tensor_algebra_backends/Dispatch.hpp: einsum"]}
{"id": "C97", "title": "Element-wise product of block and tiled tensors", "statement": "The element-wise product of a block tensor and a tiled tensor (or of two block tensors into a tiled tensor) sets every element to C_prefactor*C + AB_prefactor*A*B, whatever the order of the loop.", "quantifier": "every rank, partition, set of existing tiles, prefactors and order", "why_tests_cant": "unbounded block lists, ranks and schedules", "anchors": ["src/include/einsums/linear_algebra_imp/BlockTiledLinearAlgebra.hpp: direct_product", "src/include/einsums/tensor_algebra_backends/Dispatch.hpp: einsum"]}
{"id": "C98", "title": "QR factorisation", "statement": "qr(A) returns the reflectors, R and tau of A, and q(qr(A)) the orthogonal factor: Q^T Q = 1 and Q R = A, with R the part on and above the diagonal.", "quantifier": "every m x n tensor and every LAPACK that keeps its documented contract", "why_tests_cant": "matrices of every shape and value", "anchors": ["src/include/einsums/LinearAlgebra.hpp: qr, q", "src/backends/linear_algebra/vendor/Vendor.cpp: geqrf, orgqr", "src/backends/linear_algebra/vendor/Utilities.hpp: transpose"]}
{"id": "C99", "title": "Singular value decomposition by divide and conquer", "statement": "svd_dd(A, job) returns U, S, Vt with orthonormal singular vectors and A = U S Vt, for every job that asks for vectors.", "quantifier": "every m x n tensor, every job and every LAPACK that keeps its documented contract", "why_tests_cant": "matrices of every shape and value", "anchors": ["src/include/einsums/LinearAlgebra.hpp: svd_dd", "src/backends/linear_algebra/vendor/Vendor.cpp: gesdd"]}
{"id": "C100", "title": "Singular value decomposition and null space", "statement": "svd(A) returns U, S, Vt with orthonormal singular vectors and A = U S Vt; svd_nullspace(A) returns a basis of the null space.", "quantifier": "every m x n tensor and every LAPACK that keeps its documented contract", "why_tests_cant": "matrices of every shape and value", "anchors": ["src/include/einsums/LinearAlgebra.hpp: svd, svd_nullspace", "src/backends/linear_algebra/vendor/Vendor.cpp: gesvd"]}
{"id": "C101", "title": "Determinant", "statement": "det(A) returns the determinant of every square matrix, 0 for a singular one, and throws for a matrix that is not square.", "quantifier": "every n x n tensor and every LAPACK that keeps its documented contract", "why_tests_cant": "matrices of every size and value; termination for every pivot sequence", "anchors": ["src/include/einsums/LinearAlgebra.hpp: det"]}
{"id": "C102", "title": "LU factorisation and inverse", "statement": "invert(&A) replaces a regular square matrix by its inverse and changes no element outside it; for a singular one the program stops with a message. getrf leaves P L U = A.", "quantifier": "every square matrix or view and every LAPACK that keeps its documented contract", "why_tests_cant": "matrices of every size and value, views with every stride", "anchors": ["src/include/einsums/LinearAlgebra.hpp: getrf, getri, invert"]}
{"id": "C103", "title": "Matrix norms", "statement": "norm(type, A) is the largest absolute value, the largest column sum, the largest row sum or the root of the sum of squares.", "quantifier": "every matrix or view and every LAPACK that keeps its documented contract", "why_tests_cant": "matrices of every size and value", "anchors": ["src/include/einsums/LinearAlgebra.hpp: norm"]}
{"id": "C104", "title": "Product B^T A B", "statement": "symm_gemm<TransA, TransB>(A, B, &C) leaves op(B)^T op(A) op(B) in C, whatever C held before, and changes nothing else.", "quantifier": "every square matrix A, every B for which the product makes sense, both transposition flags, debug and release builds", "why_tests_cant": "matrices of every size and value", "anchors": ["src/include/einsums/LinearAlgebra.hpp: symm_gemm", "src/include/einsums/linear_algebra_imp/BaseLinearAlgebra.hpp: symm_gemm"]}
{"id": "C105", "title": "Scaling a row or a column", "statement": "scale_row(i, c, &A) and scale_column(j, c, &A) multiply the elements of that row or column by c and change no other element, inside or outside A.", "quantifier": "every matrix tensor or view, every row and column number", "why_tests_cant": "matrices of every size, views with every stride", "anchors": ["src/include/einsums/LinearAlgebra.hpp: scale_row, scale_column"]}
{"id": "C106", "title": "Eigenvalues of a symmetric matrix", "statement": "syev(&A, &W) of a symmetric matrix leaves its eigenvalues in W in ascending order and orthonormal eigenvectors in A; only the upper triangle of A is referenced.", "quantifier": "every symmetric matrix or view, every vector W of its size, every LAPACK that keeps its documented contract", "why_tests_cant": "matrices of every size and value, views with every stride", "anchors": ["src/include/einsums/LinearAlgebra.hpp: syev", "src/include/einsums/linear_algebra_imp/BaseLinearAlgebra.hpp: syev"]}
{"id": "C107", "title": "Powers of a symmetric matrix", "statement": "pow(A, alpha, cutoff) is A^alpha: it has the eigenvectors of A and the powers of its eigenvalues, values below the cutoff being taken as zero; natural powers are products, pow(A, 1/2) squared is A, pow(A, -1) is the inverse.", "quantifier": "every symmetric matrix, exponent and cutoff, every LAPACK that keeps its documented contract", "why_tests_cant": "matrices of every size and value, every exponent", "anchors": ["src/include/einsums/LinearAlgebra.hpp: pow", "src/include/einsums/linear_algebra_imp/BaseLinearAlgebra.hpp: pow"]}
{"id": "C108", "title": "Lyapunov equation", "statement": "solve_continuous_lyapunov(A, Q) returns X with A X + X A^T = Q whenever there is exactly one such X.", "quantifier": "every square A and Q, every LAPACK that keeps its documented contract", "why_tests_cant": "matrices of every size and value", "anchors": ["src/include/einsums/LinearAlgebra.hpp: solve_continuous_lyapunov", "tests/Decomposition.cpp: Lyapunov test"]}
{"id": "C109", "title": "Randomised singular value decomposition", "statement": "truncated_svd(A, k) returns U with orthonormal columns, S and Vt such that U S Vt is the orthogonal projection of A on the range of U, and U S Vt = A whenever the sampled range is the whole range of A; it works for every k up to the number of rows.", "quantifier": "every matrix, every k, every matrix of random numbers drawn, every LAPACK that keeps its documented contract", "why_tests_cant": "the random numbers and the matrices are unbounded", "anchors": ["src/include/einsums/LinearAlgebra.hpp: truncated_svd"]}
{"id": "C110", "title": "Randomised eigenvalue decomposition", "statement": "truncated_syev(A, k) of a symmetric matrix returns U with orthonormal columns and ascending w with U^T A U = diag(w), and A = U diag(w) U^T whenever the sampled range is the whole range of A; it works for every k up to the order of A.", "quantifier": "every symmetric matrix, every k, every matrix of random numbers drawn, every LAPACK that keeps its documented contract", "why_tests_cant": "the random numbers and the matrices are unbounded", "anchors": ["src/include/einsums/LinearAlgebra.hpp: truncated_syev"]}
{"id": "C111", "title": "Eigenvalues of a general matrix", "statement": "geev(&A, &W, &lvecs, &rvecs) stores in W the complex eigenvalues of A with their multiplicities and in the columns of rvecs and lvecs the right and left eigenvectors, for every square matrix or view of one; nothing else changes.", "quantifier": "every square matrix, every layout of the four arguments, every LAPACK that keeps its documented contract", "why_tests_cant": "matrices of every size, value and layout", "anchors": ["src/include/einsums/linear_algebra_imp/BaseLinearAlgebra.hpp: geev", "src/backends/linear_algebra/vendor/Vendor.cpp: geev"]}
{"id": "C112", "title": "Dot product of three tensors", "statement": "dot(A, B, C) of three tensors or views with equal dimensions is the sum over all multi-indices of A*B*C at that index, in whatever order the threads add up.", "quantifier": "every rank, all dimensions and elements, every layout of the views, every order of the additions", "why_tests_cant": "tensors, views and thread schedules are unbounded", "anchors": ["src/include/einsums/linear_algebra_imp/BaseLinearAlgebra.hpp: dot"]}
{"id": "C113", "title": "Linear algebra on tensors computed by a function", "statement": "dot, true_dot, gemm, gemv, ger and scale accept tensors that are not stored (function tensors, their views, the Kronecker delta) in place of stored tensors and give the mathematical result over their elements; only the elements of the output change; shapes that do not fit are rejected.", "quantifier": "every function, chain of views, combination of stored and computed arguments, dimensions (up to 2^31 for dot and scale), coefficients and order of the parallel iterations", "why_tests_cant": "functions, dimensions and thread schedules are unbounded", "anchors": ["src/include/einsums/linear_algebra_imp/UnoptimizedLinearAlgebra.hpp: dot, true_dot, gemm, gemv, ger, scale", "src/include/einsums/FunctionTensor.hpp: FunctionTensor"]}
{"id": "C114", "title": "Elementwise product with tensors computed by a function", "statement": "direct_product(alpha, A, B, beta, &C) with function tensors sets every element of C to beta*C + alpha*A*B, as for stored tensors; shapes that do not fit are rejected.", "quantifier": "every function, chain of views, dimensions up to 2^31, coefficients and order of the parallel iterations", "why_tests_cant": "functions, dimensions and thread schedules are unbounded", "anchors": ["src/include/einsums/linear_algebra_imp/UnoptimizedLinearAlgebra.hpp: direct_product"]}
{"id": "C115", "title": "Inverse of a block matrix", "statement": "invert(&A) of a block tensor of rank two replaces A by the inverse of the whole matrix, with the same blocks, and stops with an error exactly when that matrix is singular, whatever the order in which the blocks are processed.", "quantifier": "every list of blocks (sizes and elements), every order of the parallel iterations, every LAPACK that keeps its documented contract", "why_tests_cant": "the number and sizes of the blocks and the thread schedules are unbounded", "anchors": ["src/include/einsums/LinearAlgebra.hpp: invert"]}
{"id": "C116", "title": "Eigenvalues of a block matrix", "statement": "syev(&A, &W) of a symmetric block tensor stores the eigenvalues of the whole matrix in W in ascending order and orthonormal eigenvectors in the rows of A, row k for W(k), whatever the order in which the blocks are processed.", "quantifier": "every list of blocks (sizes, also 0, and elements), every order of the parallel iterations, every LAPACK that keeps its documented contract", "why_tests_cant": "the number and sizes of the blocks and the thread schedules are unbounded", "anchors": ["src/include/einsums/linear_algebra_imp/BlockLinearAlgebra.hpp: syev"]}
{"id": "C117", "title": "Powers of a block matrix", "statement": "pow(A, alpha, cutoff) of a symmetric block tensor is the power of the whole matrix (same eigenvectors, powers of the eigenvalues, cutoff relative to the largest eigenvalue for negative alpha), with the same blocks, whatever the order in which the blocks are processed.", "quantifier": "every list of blocks (sizes, also 0, and elements), every exponent, cutoff and order of the parallel iterations, every LAPACK that keeps its documented contract", "why_tests_cant": "the number and sizes of the blocks and the thread schedules are unbounded", "anchors": ["src/include/einsums/linear_algebra_imp/BlockLinearAlgebra.hpp: pow"]}
{"id": "C118", "title": "What is stored through views of a disk tensor reaches the file", "statement": "A program works on a disk tensor through views A(args...): every element read is the last value stored there; put and the end of a view's life write its block and nothing else; at every moment the file holds what was last written for each block, and once the views are gone it holds everything the program stored; other data sets are never touched.", "quantifier": "every disk tensor (rank, shape, contents), every selection (integers, All, ranges), every history of opening, reading, changing, assigning, writing back and destroying views, at every moment of it", "why_tests_cant": "histories, shapes and crash points are unbounded", "anchors": ["src/include/einsums/Tensor.hpp: DiskTensor::operator(), DiskView"]}
{"id": "C119", "title": "A const disk tensor is never changed", "statement": "Views of a const disk tensor show the elements of the file; whatever a program does with them the file does not change, and assigning to them throws.", "quantifier": "every disk tensor, every selection, every history of calls on the views", "why_tests_cant": "histories are unbounded", "anchors": ["src/include/einsums/Tensor.hpp: DiskTensor::operator() const, DiskView"]}
{"id": "C120", "title": "A tensor written to a file is read back", "statement": "write(file, T) followed by read(file, name of T) gives T again (shape and elements), whether or not the file has a data set of that name; no other data set changes.", "quantifier": "every tensor (rank, shape, elements), every content of the files", "why_tests_cant": "tensors and files are unbounded", "anchors": ["src/include/einsums/Tensor.hpp: write, read"]}
{"id": "C121", "title": "Opening and creating disk tensors", "statement": "A disk tensor refers to the data set of its name in its file: an existing one is opened unchanged (and reported by existed()) if its shape is the one asked for and refused otherwise; else one of that shape is created, and nothing else changes; the same for a disk tensor made from a tensor.", "quantifier": "every shape (also with empty axes), every content of the files", "why_tests_cant": "shapes and files are unbounded", "anchors": ["src/include/einsums/Tensor.hpp: DiskTensor::DiskTensor"]}
{"id": "C122", "title": "fft computes the discrete Fourier transform", "statement": "fft(a, &result) of n > 0 numbers puts the sums over j of a(j) exp(-2 pi i j k / n) into result(k): for all k < n if a is complex, for k <= n/2 if it is real; other elements of result are kept. A result that is too small is refused.", "quantifier": "every length, every signal, every length of the result", "why_tests_cant": "lengths and signals are unbounded", "anchors": ["src/include/einsums/FFT.hpp: fft", "src/FFT.cpp: check_size", "src/backends/fft/fftw3/fft.cpp: scfft, ccfft, dzfft, zzfft"]}
{"id": "C123", "title": "ifft inverts fft up to the length", "statement": "ifft(a, &result) computes the unnormalised inverse transform of length n = result.dim(0) (of the symmetric spectrum whose first half is a, if result is real), and does not change a; ifft after fft gives n times the signal. An a that is too short is refused.", "quantifier": "every length, every spectrum", "why_tests_cant": "lengths and spectra are unbounded", "anchors": ["src/include/einsums/FFT.hpp: ifft", "src/FFT.cpp: icheck_size", "src/backends/fft/fftw3/fft.cpp: csifft, zdifft, ccifft, zzifft"]}
{"id": "C124", "title": "fftfreq lists the frequencies of the transform", "statement": "fftfreq(n, d) has n elements; element k is m/(n d) where m is the integer congruent to k modulo n with -n/2 <= m < n/2.", "quantifier": "every n >= 0, every spacing d other than 0", "why_tests_cant": "n is unbounded", "anchors": ["src/FFT.cpp: fftfreq"]}
{"id": "C125", "title": "sort of block tensors permutes the whole tensor", "statement": "sort(cp, C_indices, &C, ap, A_indices, A) of block tensors sets every element of C, taken as a dense tensor, to cp times itself plus ap times the element of A with the indices permuted as the labels say; block tensors whose blocks do not fit are refused.", "quantifier": "every rank, permutation, list of block sizes, prefactors, order of the parallel iterations, with and without HPTT", "why_tests_cant": "block lists, sizes and schedules are unbounded", "anchors": ["src/include/einsums/ContainerSort.hpp: sort", "src/include/einsums/Sort.hpp: sort"]}
{"id": "C126", "title": "gesv solves linear systems and reports singular matrices", "statement": "gesv(&A, &B) of an n x n matrix A and right-hand sides B returns 0 if and only if A is regular; then B holds the solution X of the system, and A its LU factors. Matrices whose shapes do not fit are refused; elements outside a view are not changed.", "quantifier": "every n, number of right-hand sides, contents, views", "why_tests_cant": "sizes and contents are unbounded", "anchors": ["src/include/einsums/LinearAlgebra.hpp: gesv", "src/include/einsums/linear_algebra_imp/BaseLinearAlgebra.hpp: gesv", "src/backends/linear_algebra/vendor/Vendor.cpp: dgesv"]}
{"id": "C127", "title": "gesv of block tensors solves the whole system", "statement": "gesv(&A, &B) of block tensors with the same block sizes returns 0 if and only if A is regular; then B holds the X with X A = B, taken as dense matrices. Other block structures are refused.", "quantifier": "every list of block sizes, every interleaving of the parallel iterations (including of their accesses to the common return value)", "why_tests_cant": "block lists, sizes and interleavings are unbounded", "anchors": ["src/include/einsums/linear_algebra_imp/BlockLinearAlgebra.hpp: gesv"]}
{"id": "C128", "title": "Kernel launches give every iteration to exactly one worker", "statement": "For a kernel launch with any 3-dimensional grid and block the worker numbers are 0, 1, ..., number of workers - 1, and a loop that starts at the worker number and advances by the number of workers visits every iteration exactly once over all workers. The launches the library chooses for a number of elements always have at least one worker, at most 4096, and at most 256 threads per block.", "quantifier": "every grid and block size, every number of iterations", "why_tests_cant": "grids, blocks and iteration counts are unbounded", "anchors": ["src/include/einsums/_GPUUtils.hpp: get_worker_info, block_size, blocks"]}
{"id": "C129", "title": "Element-wise assignment to device tensors", "statement": "t.set_all(x), t.zero(), t += x, -=, *=, /= with a number, and t += u, -=, *=, /= with a device tensor of the same shape change every element of the device tensor or device view exactly once, by the operation asked for, however the GPU interleaves the workers; nothing outside a view is changed; tensors of another shape are refused.", "quantifier": "every shape, contents, layout and interleaving of the loads and stores of all workers", "why_tests_cant": "shapes and interleavings are unbounded", "anchors": ["src/include/einsums/gpu/DeviceTensor.hpp: set_all, add_and_assign, add_and_assign_scal, operator+=", "src/include/einsums/gpu/DeviceTensorView.hpp: set_all, add_assign"]}
{"id": "C130", "title": "Copies between device tensors and device views", "statement": "Assigning a device tensor, host tensor or device view to a device tensor, building a device tensor from a device view, and assigning a tensor, a view or an array to a device view copies every element to the same indices, however the GPU interleaves the workers. The target tensor gets the shape of the source. A copy of a view object has the elements of the view.", "quantifier": "every shape, contents, layout and interleaving", "why_tests_cant": "shapes and interleavings are unbounded", "anchors": ["src/include/einsums/gpu/DeviceTensor.hpp: assign, copy_to_tensor", "src/include/einsums/gpu/DeviceTensorView.hpp: assign, copy_to_tensor_array, DeviceTensorView"]}
{"id": "C131", "title": "Element functions of device tensors", "statement": "The versions of abs, invert, exp and scale that return a new tensor return, for a device tensor or a view of one, a new device tensor of the same shape that holds the function of every element. The argument is not changed. This holds for every interleaving of the GPU's workers.", "quantifier": "every shape, contents, layout and interleaving", "why_tests_cant": "shapes and interleavings are unbounded", "anchors": ["src/include/einsums/ElementOperations.hpp: new_tensor::abs, invert, exp, scale", "src/include/einsums/gpu/ElementKernels.hpp: abs, invert, exp, scale"]}
{"id": "C132", "title": "Sum, maximum and minimum of device tensors", "statement": "sum, max and min of a device tensor or view give the sum, the greatest and the least of all its elements, for every interleaving of the GPU's workers that respects the barriers of a block.", "quantifier": "every shape, contents, layout and interleaving", "why_tests_cant": "shapes and interleavings are unbounded", "anchors": ["src/include/einsums/ElementOperations.hpp: sum, max, min", "src/include/einsums/gpu/ElementKernels.hpp: sum, max, min"]}
{"id": "C133", "title": "Dot products of device tensors", "statement": "dot(A, B) of device tensors or views of equal shape returns the sum over all indices of the products of their elements, true_dot the same with the elements of A conjugated, for every interleaving of the GPU's workers. Operands of different shapes are refused.", "quantifier": "every shape, contents, layout and interleaving", "why_tests_cant": "shapes and interleavings are unbounded; the failing interleavings depend on the timing of the blocks", "anchors": ["src/include/einsums/linear_algebra_imp/GPULinearAlgebra.hpp: dot, true_dot, dot_kernel, true_dot_kernel"]}
{"id": "C134", "title": "Contractions of device tensors by the generic algorithm", "statement": "einsum on device tensors with the generic algorithm computes C(..) = cp C(..) + ab * sum A(..) B(..), the sum over the labels that C does not have, for tensors and views of any layout and for every execution of the blocks of the GPU; nothing outside a view C is changed.", "quantifier": "every list of labels, shape, layout, contents, prefactor and execution of the blocks and threads", "why_tests_cant": "labels, shapes and executions are unbounded; the failing executions depend on the timing of the blocks", "anchors": ["src/include/einsums/tensor_algebra_backends/GPUTensorAlgebra.hpp: einsum_generic_algorithm, einsum_generic_algorithm_gpu, einsum_generic_algorithm_direct_product_gpu, einsum_generic_zero_rank_gpu"]}
{"id": "C135", "title": "Sort of device tensors", "statement": "sort(beta, C labels, &C, alpha, A labels, A) on device tensors sets C at the permuted indices to beta C + alpha A, once for every element, for tensors and views of any layout and every interleaving of the GPU's workers; nothing outside a view C is changed; a target of another shape is refused.", "quantifier": "every list of labels, shape, layout, contents, factor and interleaving", "why_tests_cant": "labels, shapes and interleavings are unbounded", "anchors": ["src/include/einsums/DeviceSort.hpp: sort, sort_kernel"]}
{"id": "C136", "title": "axpy, axpby, scale and direct products of device tensors", "statement": "On device tensors and views of equal shape axpy makes every element of Y y + alpha x, axpby alpha x + beta y, scale alpha a, scale_row and scale_column scale one row or column, and direct_product makes every element of C beta c + alpha a b, for every interleaving of the GPU's workers. Nothing outside a view is changed, and operands of different shapes are refused.", "quantifier": "every shape, layout, contents, factor and interleaving", "why_tests_cant": "shapes and interleavings are unbounded", "anchors": ["src/include/einsums/linear_algebra_imp/GPULinearAlgebra.hpp: axpy, axpby, scale, scale_row, scale_column, direct_product"]}
{"id": "C137", "title": "symm_gemm, syev and pow on the device", "statement": "On device tensors symm_gemm<TransA,TransB>(A, B, &C) stores op(B)^T op(A) op(B) in C; syev stores the ascending eigenvalues of a symmetric matrix in W and orthonormal eigenvectors in the rows of A; pow(A, alpha, cutoff) is the matrix function x -> x^alpha of a symmetric A, with 0 for eigenvalues below the cutoff. The results do not depend on the order in which the workers of the kernels run.", "quantifier": "all sizes, transpositions, matrices with contiguous rows, old contents and contents of new memory, all interleavings of the workers of every kernel, every LAPACK that meets its documentation", "why_tests_cant": "The number of interleavings of thousands of workers and the sizes cannot be enumerated; the machine chooses the schedule", "anchors": ["src/include/einsums/linear_algebra_imp/GPULinearAlgebra.hpp: symm_gemm, syev, eig_to_diag, pow", "src/GPULinearAlgebra.hip: symm_gemm, syev"]}
{"id": "C138", "title": "gemm, gemv, ger and gesv on the device", "statement": "On device tensors gemm, gemv and ger compute alpha op(A) op(B) + beta C, alpha op(A) x + beta y and A + alpha x y^T; gesv solves the system for all right-hand sides in B and reports singular matrices.", "quantifier": "all shapes, transpositions, factors and element values, views with contiguous rows, all interleavings of the two sorts in ger, both kinds of hardware", "why_tests_cant": "Holds for every shape, layout and schedule; the failures (conjugation, discarded solution) depend on the element type and the hardware", "anchors": ["src/include/einsums/linear_algebra_imp/GPULinearAlgebra.hpp: gemm, gemv, ger, gesv", "src/GPULinearAlgebra.hip: gpu::gemm, gpu::ger, gpu::gemv, gpu::gesv"]}
{"id": "C139", "title": "Python views of arrays mapped into device memory", "statement": "While a GPU view of a Python buffer in mapped mode exists, every byte of the buffer is reachable by the device at the view's device pointer plus the byte's offset; several views of the same buffer, or of parts of it, share one mapping; creating and destroying views in any order never aborts the process; memory is mapped exactly as long as some view needs it, and the buffer lives at least as long.", "quantifier": "all sequences of buffer creations and deletions, view creations (with refused mappings and failed allocations) and view destructions, in any order and number", "why_tests_cant": "The mapping list is shared by all views, so its state depends on the whole history of creations and destructions", "anchors": ["src/python/PyGPUView.hip: MappingList, notify, attach, detach, PyGPUView::PyGPUView, PyGPUView::~PyGPUView", "src/include/einsums/python/PyGPUView.hpp: PyGPUView"]}
{"id": "C140", "title": "Python views of arrays copied to device memory", "statement": "A GPU view in copy mode holds on the device a copy of every element of the buffer, at the position the view's strides give; update_D2H stores the device's elements back into exactly the elements of the buffer and update_H2D the reverse; no memory outside the buffer's elements is read or written.", "quantifier": "all shapes and strides a Python buffer can have, contents and positions in memory", "why_tests_cant": "Slices, transposed arrays and reversed arrays of every shape are accepted by the same constructor", "anchors": ["src/python/PyGPUView.hip: PyGPUView::PyGPUView, update_H2D, update_D2H"]}
{"id": "C141", "title": "Contractions of the Python interface on device memory, generic plan", "statement": "Executing a plan without special structure on GPU views computes C[..] = cp C[..] + ab * sum A[..] B[..], the sum over the labels that C does not have, for views of any strides and every execution of the blocks of the GPU; nothing outside the view C changes; operands whose number of dimensions differs from the number of labels are refused.", "quantifier": "every list of labels, shape, strides, contents, prefactor and execution of the blocks and threads", "why_tests_cant": "labels, shapes and executions are unbounded; the failing executions depend on the timing of the blocks", "anchors": ["src/include/einsums/python/PyTensorAlgebra.hpp: execute_generic_gpu, einsum_generic_algorithm_gpu, einsum_generic_algorithm_direct_product_gpu, einsum_generic_zero_rank_gpu", "src/python/PyTensorAlgebra.hip: get_dim_ranges_for_many", "src/python/PyTensorAlgebra.cpp: PyEinsumGenericPlan"]}
{"id": "C142", "title": "Dot products and element-wise products of the Python interface on device memory", "statement": "With the same distinct labels on A and B the plan for no labels on C computes C = cp C + ab * sum A B, and the plan for the same labels on C makes every element of C cp C + ab A B, for views of any strides and every execution of the GPU's workers; nothing else changes; operands of different shapes are refused.", "quantifier": "every list of distinct labels, shape, strides, contents, prefactor and execution of the blocks and threads", "why_tests_cant": "shapes and executions are unbounded; the failing executions depend on the timing of the blocks", "anchors": ["src/include/einsums/python/PyTensorAlgebra.hpp: PyEinsumDotPlan::execute_imp_gpu, dot_kernel, PyEinsumDirectProductPlan::execute_imp_gpu, direct_product_kernel"]}
{"id": "C143", "title": "Outer, matrix-vector and matrix products of the Python interface on device memory", "statement": "For contiguous GPU views whose labels form an outer product, a matrix-vector product or a matrix product the plan computes C[..] = cp C[..] + ab * sum A[..] B[..] and changes nothing outside the view C, for every element type, as it does for buffers in host memory.", "quantifier": "every list of labels of these forms, shape, contents, prefactor, element type and interleaving of the scaling kernel", "why_tests_cant": "labels, shapes and prefactors are unbounded; one wrong prefactor is invisible when both prefactors agree or C is zero", "anchors": ["src/include/einsums/python/PyTensorAlgebra.hpp: PyEinsumGerPlan::execute_imp_gpu, PyEinsumGemvPlan::execute_imp_gpu, PyEinsumGemmPlan::execute_imp_gpu, scale_array", "src/python/PyTensorAlgebra.cpp: PyEinsumGerPlan, PyEinsumGemvPlan, PyEinsumGemmPlan"]}
{"id": "C144", "title": "Matrix products of the GPU backend on host memory", "statement": "gemm of the GPU backend sets the m x n matrix C (column-major, leading dimension ldc, in host memory) to alpha op(A) op(B) + beta C, and gemv sets y to alpha op(A) x + beta y, for all shapes, operations N, T, C, leading dimensions and increments, and changes no other host memory.", "quantifier": "every shape, operation, leading dimension, increment, scalar, content of the host memory and content of new device memory", "why_tests_cant": "shapes and strides are unbounded; the wrong sizes agree with the right ones for square matrices, which is what tests use, and over-reads and junk between columns are usually invisible", "anchors": ["src/backends/linear_algebra/hipblas/hipblas.hip: sgemm, dgemm, cgemm, zgemm, sgemv, dgemv, cgemv, zgemv, hipblas_char_to_op"]}
{"id": "C145", "title": "Vector operations and rank-1 updates of the GPU backend on host memory", "statement": "scal, axpy, dot and ger of the GPU backend compute alpha x, y + alpha x, the scalar product and A + alpha x y^T for vectors of n elements inc apart in host memory, as the functions of the CPU backend do, and access no memory beyond the last element.", "quantifier": "every length, increment, shape, scalar and content", "why_tests_cant": "an over-read of inc-1 elements is invisible unless the allocation ends there", "anchors": ["src/backends/linear_algebra/hipblas/hipblas.hip: sscal, saxpy, sdot, sger and the other element types"]}
{"id": "C146", "title": "Eigenvalue and linear solvers of the GPU backend on host memory", "statement": "syev of the GPU backend leaves the eigenvalues in w and orthonormal eigenvectors in the columns of A; gesv returns 0 exactly if A is regular, and then replaces B by the X with A X = B, for any number of right-hand sides; nothing else in host memory changes.", "quantifier": "every size, number of right-hand sides, leading dimension and content", "why_tests_cant": "sizes are unbounded; a wrong number of columns is right for as many right-hand sides as unknowns", "anchors": ["src/backends/linear_algebra/hipblas/hipsolver.hip: ssyev, dsyev, sgesv, dgesv, cgesv, zgesv"]}
{"id": "C147", "title": "Resources of the GPU backend", "statement": "Every function of the GPU backend releases the device memory, host registrations and heap memory it acquires, whether it returns normally or a HIP call fails at any point; hence a program of any length holds none afterwards.", "quantifier": "every function, every point at which a HIP call can fail, every history of calls", "why_tests_cant": "failure points cannot be provoked one by one, and a leak of a block per call shows only after long histories", "anchors": ["src/backends/linear_algebra/hipblas/hipblas.hip: all functions", "src/backends/linear_algebra/hipblas/hipsolver.hip: ssyev, sgesv, sgetrf and the other element types"]}
{"id": "C148", "title": "Hermitian eigenproblems", "statement": "heev(&A, &W) of a Hermitian n x n matrix leaves the eigenvalues, real and in ascending order, in W and orthonormal eigenvectors in A, one for each eigenvalue, and changes nothing outside A and W; with ComputeEigenvectors = false the same eigenvalues.", "quantifier": "every Hermitian matrix of every size, tensors and views with any leading dimension", "why_tests_cant": "matrices are unbounded; transposition and conjugation agree for real matrices, and tests check the eigenvalues only", "anchors": ["src/include/einsums/linear_algebra_imp/BaseLinearAlgebra.hpp: heev", "src/include/einsums/LinearAlgebra.hpp: heev", "src/backends/linear_algebra/vendor/Vendor.cpp: cheev, zheev"]}
{"id": "C149", "title": "Random tensors", "statement": "create_random_tensor(name, dims...) returns a tensor of that shape whose elements are drawn from [-1, 1), whatever the number of threads; two calls give different numbers.", "quantifier": "every shape, number of threads and sequence of random numbers", "why_tests_cant": "a data race depends on the schedule; that the engine restarts is invisible in a test of one call", "anchors": ["src/include/einsums/Utilities.hpp: create_random_tensor"]}
{"id": "C150", "title": "Random definite and semidefinite matrices", "statement": "create_random_definite(name, n, n, mean) returns a symmetric matrix that is positive definite if mean > 0 and negative definite if mean < 0; create_random_semidefinite a positive (negative) semidefinite one, with at least force_zeros zero eigenvalues; both reject other shapes and always return.", "quantifier": "every size, mean, number of zeros and sequence of random numbers", "why_tests_cant": "the random numbers are unbounded; the singular case of the retry loop does not occur with the one sequence that the library draws for a given size", "anchors": ["src/include/einsums/Utilities.hpp: create_random_definite, create_random_semidefinite"]}
{"id": "C151", "title": "Sum of squares", "statement": "sum_square(a, &scale, &sumsq) replaces scale and sumsq by numbers with scale^2 sumsq = sum |a(i)|^2 + scale_in^2 sumsq_in, for tensors and strided views.", "quantifier": "every vector, stride and pair of initial values", "why_tests_cant": "lengths and strides are unbounded; tests use contiguous vectors with scale 1 and sum 0", "anchors": ["src/include/einsums/linear_algebra_imp/BaseLinearAlgebra.hpp: sum_square", "src/include/einsums/LinearAlgebra.hpp: sum_square"]}
{"id": "C152", "title": "Weighted alternating least squares never increases the weighted error", "statement": "Each update of weighted_parafac replaces one factor by an optimum of the weighted least squares problem given the others (the elements with first index x weighted by w(x)^2), and the factors it returns have a weighted squared error at most that of the starting factors, provided LAPACK solved every system; weights of another length than the first mode are reported.", "quantifier": "every tensor of two or more non-empty modes, weights, CP rank, starting factors, number of iterations and outcome of the convergence test", "why_tests_cant": "iterations and inputs unbounded; a test sees the final error only", "anchors": ["src/include/einsums/Decomposition.hpp: weighted_parafac, weight_tensor", "src/include/einsums/linear_algebra_imp/BaseLinearAlgebra.hpp: gesv"]}
{"id": "C153", "title": "Tucker decompositions by higher-order SVD and orthogonal iteration", "statement": "tucker_ho_svd(tensor, ranks) returns factors with orthonormal columns, the leading left singular vectors of the unfoldings, and the core of the tensor for them; reconstructing gives the tensor back exactly if the singular values left out are zero, and otherwise with a squared error of at most the sum of the squares of those left out. tucker_ho_oi returns, however many iterations it makes, factors with orthonormal columns and their core, each iteration taking the singular vectors of the tensor projected on the other factors; with ranks equal to the dimensions the reconstruction is exact.", "quantifier": "every tensor of two or more modes, all ranks up to the dimensions, number of iterations and outcome of the convergence test", "why_tests_cant": "tensors, ranks and iterations unbounded; tests compare one tensor within a tolerance", "anchors": ["src/include/einsums/Decomposition.hpp: initialize_tucker, tucker_ho_svd, tucker_ho_oi, tucker_reconstruct", "src/include/einsums/LinearAlgebra.hpp: svd_dd"]}
{"id": "C154", "title": "Assigning to a view", "statement": "view = other, for a tensor or view of the same shape, gives every element of the view the value of the element of other with the same index, and changes nothing outside the view, however the iterations are distributed over threads and also when the two views share storage; view = pointer copies the array in row-major order; an operand of another shape is reported.", "quantifier": "every view, every source with its own storage or sharing it, every order of the iterations, every array", "why_tests_cant": "shapes, strides, overlaps and schedules are unbounded; tests assign between separate tensors", "anchors": ["src/include/einsums/Tensor.hpp: TensorView::operator=(const T *), operator=(const TensorView &), operator=(const AType<T, Rank> &)"]}
{"id": "C155", "title": "Starting factors of the CP decomposition", "statement": "initialize_cp(unfoldings, rank) returns one dims[m] x rank factor per mode, whose columns are orthonormal eigenvectors of the unfolding times its transpose for the rank largest eigenvalues (those of the first mode scaled by the singular values), padded with random numbers if the rank is larger than the dimension; so parafac(tensor, rank) returns factors whose squared error is at most that of these eigenvectors.", "quantifier": "every tensor of two or more non-empty modes, every rank, order of the loops, number of threads and outcome of the convergence test", "why_tests_cant": "tensors and ranks are unbounded; tests look at the final decomposition of one tensor", "anchors": ["src/include/einsums/Decomposition.hpp: initialize_cp, parafac", "src/include/einsums/linear_algebra_imp/BaseLinearAlgebra.hpp: syev, scale_column", "src/include/einsums/Sort.hpp: sort", "src/include/einsums/Utilities.hpp: create_random_tensor"]}
{"id": "C156", "title": "Interleavings of the parallel loops over tiles", "statement": "einsum and direct_product on tiled tensors give the same elements however the threads interleave, also in the middle of finding, creating and updating a tile: the result is that of the iterations one after the other in some order, no tile is created or updated twice or lost, the locks never deadlock, and every schedule that keeps giving each iteration its turn ends.", "quantifier": "every set of existing tiles, every interleaving of the steps of the iterations, every way to split the update of a tile into steps, unbounded number of threads", "why_tests_cant": "the interleavings are unbounded and a lost update appears only in a rare one", "anchors": ["src/include/einsums/tensor_algebra_backends/TileAlgebra.hpp: einsum_special_dispatch", "src/include/einsums/linear_algebra_imp/TiledLinearAlgebra.hpp: direct_product", "src/include/einsums/utility/TensorBases.hpp: LockableTensorBase::lock, unlock", "src/include/einsums/TiledTensor.hpp: tile, has_tile, add_tile"]}
{"id": "C157", "title": "Locks of tensors and views", "statement": "lock() and try_lock() on a tensor or view succeed exactly when no other thread holds an object that shows the same elements, a thread may lock again what it holds, unlock() gives back one of its own locks, and a tensor may be destroyed before its views.", "quantifier": "every history of creating, copying, assigning and destroying tensors and views and of lock, try_lock and unlock by any number of threads", "why_tests_cant": "the histories and the number of threads are unbounded; tests lock one tensor in one thread", "anchors": ["src/include/einsums/utility/TensorBases.hpp: LockableTensorBase", "src/include/einsums/Tensor.hpp: TensorView::common_initialization", "src/include/einsums/DeviceTensor.hpp: DeviceTensorView", "src/include/einsums/DiskTensor.hpp: DiskView", "src/include/einsums/BlockTensor.hpp: push_block"]}
{"id": "C158", "title": "Formats of Python buffers", "statement": "A runtime tensor made of a Python buffer, or t OP= buffer, reads the items as what the format of the buffer says: every number code is read as the type it stands for and converted to the type of the tensor without loss other than rounding, and every other format is rejected.", "quantifier": "every format string and item size, every shape and strides of a buffer, every order of the iterations", "why_tests_cant": "formats and buffers are unbounded; tests use arrays of one type", "anchors": ["src/include/einsums/python/PyTensor.hpp: copy_and_cast_assign, copy_and_cast_add, copy_and_cast_sub, copy_and_cast_mult, copy_and_cast_div"]}
{"id": "C159", "title": "Builds of einsum that test their results", "statement": "A build with continuous testing returns what any other build returns, reports exactly the elements that differ from the sum by more than the tolerance or are not numbers, and aborts exactly if it was built to and something is reported; a build that tests for NaN throws exactly if the result has a NaN, an infinity or a large number.", "quantifier": "every label pattern, shapes, operands (tensors and views), prefactors, result of the selected algorithm, real and complex numbers", "why_tests_cant": "the patterns and values are unbounded, and the test is itself the oracle of the other tests", "anchors": ["src/include/einsums/tensor_algebra_backends/Dispatch.hpp: einsum (EINSUMS_CONTINUOUSLY_TEST_EINSUM, EINSUMS_TEST_EINSUM_ABORT, EINSUMS_TEST_NANS)"]}
{"id": "C160", "title": "Printing a tensor", "statement": "println(A, options) writes the name, type, dimensions and strides of a tensor or view, and with full output every element exactly once, in row-major order: a vector one element per line with its index, other tensors width elements per line, with a label that gives the leading indices and the first and last column of the line; it leaves the indentation as it was.", "quantifier": "every tensor and view of any rank and shape, every width, every history of indentations, every thread", "why_tests_cant": "shapes and widths are unbounded; tests only look at whether printing returns", "anchors": ["src/include/einsums/Tensor.hpp: println, fprintln, TensorPrintOptions", "src/include/einsums/Print.hpp: TuplePrinterNoType, Indent", "src/Print.cpp: fprintln"]}
{"id": "C161", "title": "Printed block and tiled tensors show their parts", "statement": "println and fprintln of a block tensor write its name, the type, and every block as a tensor by itself, in order; those of a tiled tensor the name, type, dimensions, and exactly the stored tiles, once each, in the order of the grid with the first coordinate fastest; the options of the call (width, full_output) apply to every part and the indentation is nested properly.", "quantifier": "all block and tiled tensors with any number of blocks, any grid, any set of stored tiles, any elements, options, indentation history and thread.", "why_tests_cant": "grids, sparsity patterns and options are unbounded; tests print a few small tensors and look at none of the output.", "anchors": ["src/include/einsums/BlockTensor.hpp: println, fprintln", "src/include/einsums/TiledTensor.hpp: println, fprintln", "src/include/einsums/Tensor.hpp: TensorPrintOptions"]}
{"id": "C162", "title": "Elements of device tensors are variables", "statement": "T(i, j, ...) of a device tensor is the element at that index wherever the tensor keeps its data: reading gives the value last assigned, =, +=, -=, *= and /= with values or with other elements change that element alone, and an index outside the tensor throws. Block device tensors behave like the matrix of their blocks, zero elsewhere.", "quantifier": "all programs of such statements on any number of device tensors of any shapes in any mixture of modes (device only, mapped, pinned), all indices, also negative ones, and all sizes; all partitions into blocks.", "why_tests_cant": "programs, shapes and mixtures of modes are unbounded, and the tests of device tensors need a GPU.", "anchors": ["src/include/einsums/DeviceTensor.hpp: HostDevReference", "src/include/einsums/gpu/DeviceTensor.hpp: DeviceTensor::operator(), DeviceTensor::gpu_data, DeviceTensor::DeviceTensor", "src/include/einsums/BlockTensor.hpp: BlockDeviceTensor::operator()"]}
{"id": "C163", "title": "Memory of device tensors is released exactly once", "statement": "Whatever a program does with device tensors and device views - declaring, creating in any storage mode, copying, reshaping, assigning, resizing, viewing, mapping memory in core - memory is never released twice nor used after its release, kernels can work on every initialised tensor and see the dimensions it reports, and once all objects are destroyed, in any order, nothing is left allocated or registered.", "quantifier": "all finite programs of such statements on any number of objects with any storage modes and dimensions, also those in which statements throw, and all orders of destruction.", "why_tests_cant": "programs and orders of destruction are unbounded, leaks are invisible to assertions on values, and the tests of device tensors need a GPU.", "anchors": ["src/include/einsums/gpu/DeviceTensor.hpp: DeviceTensor::DeviceTensor, DeviceTensor::~DeviceTensor, DeviceTensor::init, DeviceTensor::assign, DeviceTensor::resize", "src/include/einsums/gpu/DeviceTensorView.hpp: DeviceTensorView::DeviceTensorView, DeviceTensorView::~DeviceTensorView", "src/include/einsums/DeviceTensor.hpp: DeviceTensorView"]}
{"id": "C164", "title": "Shutting the library down", "statement": "After initialize, any timed work and finalize, the timing report of that work is where finalize was asked to put it, exactly once, nothing of the library is left - no timers, GPU streams, handles or memory pools - and the library can be initialised and used again, any number of times; a Python program gets the report that it asked for with set_finalize_arg.", "quantifier": "all sequences of uses of the library in a process, all sequences of timed calls in each, all arguments of finalize, all numbers of threads, with and without a GPU.", "why_tests_cant": "the number of uses, the work and the indentation are unbounded, the report is written when a process ends, after any test has finished, and leaks of handles and pools are invisible to assertions.", "anchors": ["src/InitializeFinalize.cpp: initialize, finalize, finalize_pre", "src/_GPUUtils.hip: initialize, finalize, stream_wait", "src/Timer.cpp: report, finalize", "einsums/__init__.py: set_finalize_arg", "src/python/PyMain.cpp: finalize"]}
{"id": "C165", "title": "Memory of tensors, and what their views show", "statement": "Whatever is declared, copied, viewed, reshaped, resized, assigned, written and destroyed, in any order: the memory of tensors is never lost and never freed twice, a tensor has all its elements at all times, and a view always shows the tensor it was taken of, as it is now; when an operation throws, the tensors still have their elements.", "quantifier": "all programs of these statements of any length, all shapes and elements, all selections and ranges, all capacities that the vector of the C++ library may choose.", "why_tests_cant": "dangling pointers, leaks and double frees depend on the history of the program and on the capacities that the allocator chose; a freed block usually still shows its old elements, so assertions on the elements pass.", "anchors": ["src/include/einsums/Tensor.hpp: Tensor::Tensor, Tensor::resize, Tensor::operator=, Tensor::operator(), TensorView::TensorView, TensorView::operator=, TensorView::common_initialization"]}
{"id": "C166", "title": "A printed runtime tensor shows every element once", "statement": "Printing a tensor or view whose rank is known at run time only writes its name, its type, its dimensions and strides and, if asked, every element exactly once, in row-major order, in lines of the wanted number of elements, each line labelled with the indices of its elements and indented by the current level; the indentation is the same afterwards.", "quantifier": "all ranks, dimensions and strides, all elements, all widths, all histories of indentations, all threads inside and outside parallel regions.", "why_tests_cant": "the line breaks depend on the remainder of the number of columns by the width, the combinations of indices are found by dividing a counter by products of the dimensions, and the subscripts take different paths by rank: tests print a few shapes and nobody compares the output.", "anchors": ["src/include/einsums/RuntimeTensor.hpp: fprintln, println, RuntimeTensor::operator(), RuntimeTensorView::operator()", "src/include/einsums/utility/IndexUtils.hpp: dims_to_strides, sentinel_to_indices", "src/Print.cpp: println"]}
{"id": "C167", "title": "After waiting for the GPU, the work is done", "statement": "When stream_wait() of a thread comes back, everything that the thread queued before on the GPU, as kernels or through hipBLAS and hipSOLVER, is done, unless the thread asked for this wait to be skipped; a wait is skipped exactly when the thread called skip_next_wait() and no skippable wait since; all_stream_wait() waits for what all threads had queued; and every wait comes back once the device has done its work.", "quantifier": "all interleavings of any number of threads and of the device, all sequences of launches, library calls, waits, skips and changes of streams, of any length.", "why_tests_cant": "the device runs behind the host by an amount that depends on the load, so a wait that is missing or is for the wrong stream gives wrong elements only now and then; lost updates of flags need two threads in a window of a few instructions.", "anchors": ["src/_GPUUtils.hip: set_stream, get_stream, skip_next_wait, stream_wait, all_stream_wait, get_blas_handle, get_solver_handle", "src/include/einsums/_GPUUtils.hpp: stream_wait, skip_next_wait, all_stream_wait, set_stream"]}
{"id": "C168", "title": "A failing GPU call raises the exception of its status", "statement": "A wrapped call of HIP, hipBLAS or hipSOLVER returns exactly when its status is success; otherwise it throws the exception type declared for that status, whose text names the file, the line, the function, the call and the number of the status; in Python the exception is the class of einsums.gpu_except with the name of the status, and every registered name is there.", "quantifier": "all status numbers, whether the library knows them or not, all assignments of numbers to the enumerators that the headers of ROCm may make, all call sites.", "why_tests_cant": "most errors of the GPU cannot be provoked on a working machine, and the numbers come from headers of the ROCm release.", "anchors": ["src/_GPUUtils.hip: __hip_catch__, __hipblas_catch__, __hipsolver_catch__, hipsolverStatusToString", "src/include/einsums/_GPUUtils.hpp: hip_exception, hipblas_exception, hipsolver_exception", "src/python/PyGpuExceptions.hip: export_gpu_except"]}
{"id": "C169", "title": "Switching OpenMP threads off in a scope and back", "statement": "In a scope of DisableOMPThreads (as in svd and svd_dd) every parallel region has one thread, in a scope of DisableOMPNestedScope at most one active level, and after the scope the number of threads, and of levels, is what it was, also when an exception leaves it.", "quantifier": "all programs of parallel regions, exceptions, handlers and nested scopes of both kinds, all settings before.", "why_tests_cant": "a setting that is not restored shows as slow or oversubscribed code much later, in another part of the program, and only on the paths with exceptions or nested scopes.", "anchors": ["src/include/einsums/Utilities.hpp: DisableOMPThreads, DisableOMPNestedScope", "src/include/einsums/LinearAlgebra.hpp: svd, svd_dd"]}
{"id": "C170", "title": "Views of device tensors", "statement": "T(args...) with All, Ranges and integers, and to_rank_1_view, give a view of a device tensor in every mode: V(j...) is always the value that the selected element of the tensor has at that time. A copy of a view has the same dimensions and elements, and to_rank_1_view of a view has the elements of the view in row-major order.", "quantifier": "all device tensors in all modes, all sub-tensor expressions and boxes in range, all programs of assignments to elements of device tensors after the view is made, all in-range indices.", "why_tests_cant": "device tests look at one view of one small tensor right after making it and are not run without a GPU; copies of views that begin inside a row read past the allocation silently.", "anchors": ["src/include/einsums/DeviceTensor.hpp: DeviceTensor::to_rank_1_view, DeviceTensorView", "src/include/einsums/gpu/DeviceTensor.hpp: DeviceTensor::operator()", "src/include/einsums/gpu/DeviceTensorView.hpp: DeviceTensorView copy constructor, operator(), to_rank_1_view, common_initialization"]}
{"id": "C171", "title": "Device tensors of no dimensions", "statement": "A DeviceTensor<T, 0> in any mode behaves like a variable of type T: created from a host tensor or copied it has that value, assignments and OP= act on it alone, conversions to T and to Tensor<T, 0> give its value and leave it as it was, and its memory is released exactly once, with it.", "quantifier": "all programs of creations in all modes, copies, assignments, updates, reads, conversions and ends of tensors, all values, all contents of fresh memory.", "why_tests_cant": "the copy constructor's default mode shows only when a copy is used later, and the calls behave differently in each of three modes on each side; the tests need a GPU.", "anchors": ["src/include/einsums/DeviceTensor.hpp: DeviceTensor<T, 0>"]}
{"id": "C172", "title": "The typed BLAS/LAPACK interface", "statement": "A call of a function of einsums::blas with element type T (including scaling a complex vector by a real number) calls the backend's routine of that operation and precision with the same arguments in the same order and returns its result; no two different calls arrive at the backend as the same.", "quantifier": "all operations, all element types each is offered for, all backends, all arguments.", "why_tests_cant": "a test of one precision with symmetric or equal sizes does not show a swapped argument or a wrong precision of another, and there are eighty specialisations.", "anchors": ["src/include/einsums/Blas.hpp: blas::gemm, gemv, ger, syev, heev, geev, gesv, scal, dot, dotc, axpy, axpby, getrf, getri, lange, lassq, gesdd, gesvd, gees, trsyl, geqrf, orgqr, ungqr", "src/Blas.cpp: einsums::blas::detail"]}
{"id": "C173", "title": "Conversion between host and device element types", "statement": "HipCast<To, From>::cast gives the same number: its real part, and if To is complex its imaginary part (zero if From is real), each in the precision of To; converting a host value to the device type of its precision and back, or a single precision value to double precision and back, gives the value.", "quantifier": "all thirty-six pairs of types, all values, all conversions between the two precisions.", "why_tests_cant": "the tests need a GPU and convert only between the host and device type of one precision.", "anchors": ["src/include/einsums/_GPUCast.hpp: HipCast"]}
{"id": "C174", "title": "The options of a view", "statement": "TensorView(other, dims, options...) takes its strides from a Stride and its start from an Offset among the options, in any order; without a Stride it has the strides of a parent of the same rank, or the elements of the parent in row-major order if it has another rank and as many elements, and is refused otherwise; a dimension of -1 is the number of elements there are. An option that cannot be used is not ignored.", "quantifier": "all tensors and views of any rank, all dimensions, all lists of options of any kinds, ranks and order.", "why_tests_cant": "ranks and option lists are unbounded; the tests give one Offset or Stride of the right rank to views of whole tensors.", "anchors": ["src/include/einsums/Tensor.hpp: TensorView::TensorView, TensorView::common_initialization", "src/include/einsums/STL.hpp: arguments::get"]}
{"id": "C175", "title": "Tensors of random numbers in Python", "statement": "create_random_tensor(name, dims, dtype, random_func) returns a tensor of the given shape and data type, every element of which is made of values that random_func returned, each used once and in row-major order: one value an element, its real part for a real tensor, or two real values as the parts of a complex element. One value is used up to find out the type. Any function that returns real or complex numbers can be used; data types other than the four supported ones raise an exception.", "quantifier": "all shapes of any rank, all data types, all functions (sequences of returned values of any Python or NumPy number type).", "why_tests_cant": "shapes and functions are unbounded; the tests only use Python's random.random.", "anchors": ["einsums/utils.py: create_tensor, create_random_tensor", "src/include/einsums/python/PyTensor.hpp: export_tensor"]}
{"id": "C176", "title": "The text of dimensions, strides, counts, offsets and ranges", "statement": "Formatting a Dim, Stride, Count, Offset or Range gives its name and, in braces, the usual decimal numerals of its numbers, so that the text tells which kind of list it is and which numbers it holds; a format specification is refused.", "quantifier": "all ranks including 0, all numbers including negative ones, all format specifications.", "why_tests_cant": "ranks and numbers are unbounded, and that no two lists share a text is a statement about pairs.", "anchors": ["src/include/einsums/_Common.hpp: fmt::formatter<einsums::Dim>, fmt::formatter<einsums::Stride>, fmt::formatter<einsums::Count>, fmt::formatter<einsums::Offset>, fmt::formatter<einsums::Range>"]}
{"id": "C177", "title": "Enumerations as sets of flags", "statement": "For an enum class declared a bitset enumeration, & | ^ ~ and the compound forms are intersection, union, symmetric difference and complement of the sets of flags, and their results are values of the enumeration.", "quantifier": "all underlying types (any width, signed or unsigned), all values.", "why_tests_cant": "values and widths are many; narrow underlying types go through int and back.", "anchors": ["src/include/einsums/utility/BitsetEnum.hpp: operator&, operator^, operator|, operator~, operator&=, operator^=, operator|="]}
{"id": "C178", "title": "Blocks by name", "statement": "A name stands for the first block that has it, and looking up a name no block has is an error; blocks that are pushed, inserted or assigned keep their names and their contents, and the other blocks theirs.", "quantifier": "all histories of pushes and insertions, positions, names, contents and capacities of the vector of blocks.", "why_tests_cant": "whether a name survives depends on whether the vector of blocks happens to have room, so on the history before.", "anchors": ["src/include/einsums/BlockTensor.hpp: block, push_block, insert_block, operator=", "src/include/einsums/Tensor.hpp: Tensor::operator=, Tensor(const Tensor &)"]}
{"id": "C179", "title": "Gauss\u2013Laguerre quadrature", "statement": "gauss_laguerre(n) returns the n roots of the Laguerre polynomial of degree n in ascending order and positive weights, such that the weighted sum of a polynomial of degree below 2n at the roots is its integral over the positive half line with the weight exp(-t); weight(t) is the tensor of exp(-t).", "quantifier": "all degrees, all polynomials, all correct eigensolvers, all numbers of threads and interleavings.", "why_tests_cant": "the rule is exact for a whole space of polynomials, for every n; a test compares a few nodes and weights with a table.", "anchors": ["src/include/einsums/polynomial/Laguerre.hpp: gauss_laguerre, weight"]}
{"id": "C180", "title": "Tensors to the device and back", "statement": "A host tensor copied to the device, in any mode, has the same shape and elements there, and converting or assigning a device tensor to a host tensor gives the host tensor its shape and elements; reading a vector or an array into a device tensor and writing it out again gives the elements in row-major order, and nothing else changes; tensors that are not initialised are refused.", "quantifier": "all shapes, elements, modes, previous shapes and contents of the targets and contents of new memory.", "why_tests_cant": "the number of elements that are copied comes from three different computations, one of them in a 32-bit int; no test moves a tensor of 2^31 elements.", "anchors": ["src/include/einsums/gpu/DeviceTensor.hpp: DeviceTensor(const Tensor &, HostToDeviceMode), operator Tensor, read, write", "src/include/einsums/Tensor.hpp: operator=(const DeviceTensor &)"]}
{"id": "C181", "title": "Tiled tensors to the device and back", "statement": "A tiled host tensor assigned to a tiled device tensor has the same grid and elements there, in every mode and whichever tiles are stored; converting a tiled device tensor to a host tensor gives the full shape and the same elements, with zeros where a tile is missing.", "quantifier": "all grids, sets of stored tiles, elements, modes and contents of new memory.", "why_tests_cant": "the tiles are copied one by one, each with a size computed in a 32-bit int, and missing tiles must be told from stored ones; tests use a few small grids.", "anchors": ["src/include/einsums/TiledTensor.hpp: TiledDeviceTensor::add_tile, TiledDeviceTensor::operator=, operator Tensor, operator TensorType"]}
