{
 "claims": [
  {
   "property": "C01",
   "status": "proved",
   "theorems": [
    "Einsums.Props.C01_enumeration",
    "Einsums.Props.C01_index_roundtrip",
    "Einsums.Props.C01_position_roundtrip"
   ],
   "note": "Round trips, range and row-major enumeration for every shape."
  },
  {
   "property": "C02",
   "status": "proved",
   "theorems": [
    "Einsums.Props.C02_accepts",
    "Einsums.Props.C02_rejects",
    "Einsums.Props.C02_row_major"
   ],
   "note": "Accept/reject characterisation for every dimension list and index list."
  },
  {
   "property": "C03",
   "status": "proved",
   "theorems": [
    "Einsums.Props.C03_addresses"
   ],
   "note": "Every freshly constructed tensor; also the basis of C04."
  },
  {
   "property": "C04",
   "status": "proved",
   "theorems": [
    "Einsums.Props.C04_constructed",
    "Einsums.Props.C04_history",
    "Einsums.Props.C04_write_read"
   ],
   "note": "Single writes and arbitrary write histories, for every tensor and every non-aliasing view."
  },
  {
   "property": "C05",
   "status": "partial",
   "theorems": [
    "Einsums.Props.C05_size_exactly",
    "Einsums.Props.C05_size_partial",
    "Einsums.Props.C05_size_refuted"
   ],
   "note": "Proved below 2^31 elements; refuted above (int accumulator in std::accumulate)."
  },
  {
   "property": "C06",
   "status": "partial",
   "theorems": [
    "Einsums.Props.C06_empty_refuted",
    "Einsums.Props.C06_reshape_decides_partial",
    "Einsums.Props.C06_reshape_ok",
    "Einsums.Props.C06_two_autos",
    "Einsums.Props.C06_zero_dim_ub"
   ],
   "note": "Full for requests without -1; with -1 excluded: empty tensor, or another dimension 0 (both refuted)."
  },
  {
   "property": "C07",
   "status": "proved",
   "theorems": [
    "Einsums.Props.C07_history",
    "Einsums.Props.C07_resize",
    "Einsums.Props.C07_resize_elements"
   ],
   "note": "Single resize, element preservation and resize histories."
  },
  {
   "property": "C08",
   "status": "partial",
   "theorems": [
    "Einsums.Props.C08_sub_partial",
    "Einsums.Props.C08_sub_refuted",
    "Einsums.Props.C08_sub_write_partial"
   ],
   "note": "Proved when no integer precedes a Range and the view is non-empty; refuted otherwise (offsets[counter] overwrites)."
  },
  {
   "property": "C09",
   "status": "proved",
   "theorems": [
    "Einsums.Props.C09_box_outside",
    "Einsums.Props.C09_box_read",
    "Einsums.Props.C09_box_writes",
    "Einsums.Props.C09_empty_at_end_ub"
   ],
   "note": "Reads, write histories, and unchanged elements outside the box."
  },
  {
   "property": "C10",
   "status": "proved",
   "theorems": [
    "Einsums.Props.C10_view_of_view"
   ],
   "note": "Nested boxes compose, same strided view."
  },
  {
   "property": "C11",
   "status": "proved",
   "theorems": [
    "Einsums.Props.C11_assign",
    "Einsums.Props.C11_assign_other",
    "Einsums.Props.C11_of_view"
   ],
   "note": "Same-type and converting assignment (with exact throw condition), construction from a view."
  },
  {
   "property": "C12",
   "status": "partial",
   "theorems": [
    "Einsums.Props.C12_assign_view_partial",
    "Einsums.Props.C12_assign_view_refuted",
    "Einsums.Props.C12_assign_view_smaller"
   ],
   "note": "Proved for equal shapes; behaviour for smaller destinations characterised; refuted in general."
  },
  {
   "property": "C13",
   "status": "proved",
   "theorems": [
    "Einsums.Props.C13_scalar",
    "Einsums.Props.C13_tensor",
    "Einsums.Props.C13_tensor_elements",
    "Einsums.Props.C13_throws"
   ],
   "note": "Every thread count and every interleaving; throw proved for element counts below 2^31 (C05)."
  },
  {
   "property": "C14",
   "status": "partial",
   "theorems": [
    "Einsums.Props.C14_flatten",
    "Einsums.Props.C14_view_partial",
    "Einsums.Props.C14_view_refuted",
    "Einsums.Props.C14_view_throws"
   ],
   "note": "Tensors in full, throw on last stride != 1, row-major views; refuted for other views."
  },
  {
   "property": "C15",
   "status": "proved",
   "theorems": [
    "Einsums.Props.C15_contraction",
    "Einsums.Props.C15_contraction_scalar",
    "Einsums.Props.C15_einsum"
   ],
   "note": "Any ranks, label patterns and shapes with contracted labels not repeated in A, over any commutative semiring; tensor and scalar results."
  },
  {
   "property": "C16",
   "status": "partial",
   "theorems": [
    "Einsums.Props.C16_diagonal_of_B_partial",
    "Einsums.Props.C16_overcount",
    "Einsums.Props.C16_refuted",
    "Einsums.Props.C16_refuted_einsum",
    "Einsums.Props.C16_refuted_out_of_range"
   ],
   "note": "Refuted exactly: C()=A(i,i)B(i) counts the diagonal dim(i) times, and with a second label reads out of range. Proved when the repetition is in B only."
  },
  {
   "property": "C17",
   "status": "partial",
   "theorems": [
    "Einsums.Props.C17_elementwise",
    "Einsums.Props.C17_gemm_partial",
    "Einsums.Props.C17_gemv_partial",
    "Einsums.Props.C17_generic",
    "Einsums.Props.C17_generic_scalar",
    "Einsums.Props.C17_refuted_dot",
    "Einsums.Props.C17_refuted_outer"
   ],
   "note": "Without algebraic laws: generic, element-wise, gemm and gemv paths proved; refuted for the dot and outer paths, which scale by zero instead of clearing."
  },
  {
   "property": "C18",
   "status": "proved",
   "theorems": [
    "Einsums.Props.C18_any_two",
    "Einsums.Props.C18_deterministic"
   ],
   "note": "Every distribution over threads and every interleaving of single loads and stores, no algebraic law."
  },
  {
   "property": "C19",
   "status": "partial",
   "theorems": [
    "Einsums.Props.C19_gemm_partial",
    "Einsums.Props.C19_refuted_batch",
    "Einsums.Props.C19_refuted_empty",
    "Einsums.Props.C19_refuted_uncovered"
   ],
   "note": "Proved for every block pattern, transposition, shape and row-major operand when every label of C occurs in A or B, no label occurs in all three, and no contracted dimension is 0 (unless C has no elements); each exclusion is refuted."
  },
  {
   "property": "C20",
   "status": "partial",
   "theorems": [
    "Einsums.Props.C20_gemv_partial",
    "Einsums.Props.C20_refuted_empty",
    "Einsums.Props.C20_refuted_uncovered",
    "Einsums.Props.C20_swap_never_selected"
   ],
   "note": "Proved when every label of C occurs in A or B and no contracted dimension is 0 (unless C has no elements); both exclusions refuted; the vector-times-matrix branch is shown never to be selected."
  },
  {
   "property": "C21",
   "status": "partial",
   "theorems": [
    "Einsums.Props.C21_outer_partial",
    "Einsums.Props.C21_outer_views_partial",
    "Einsums.Props.C21_refuted_interleaved",
    "Einsums.Props.C21_refuted_view"
   ],
   "note": "Proved when C's labels are A's then B's or B's then A's, with C a tensor, or row-major with any views A, B; refuted for interleaved labels and for strided C views."
  },
  {
   "property": "C22",
   "status": "proved",
   "theorems": [
    "Einsums.Props.C22_dot"
   ],
   "note": "Any shapes and strides of A and B, over any commutative semiring."
  },
  {
   "property": "C23",
   "status": "proved",
   "theorems": [
    "Einsums.Props.C23_elementwise"
   ],
   "note": "Any shape, any operands, including division of prefactors as the code does it."
  },
  {
   "property": "C24",
   "status": "partial",
   "theorems": [
    "Einsums.Props.C24_accepts",
    "Einsums.Props.C24_one_dimension_per_label",
    "Einsums.Props.C24_rejects",
    "Einsums.Props.C24_throws_or_returns_partial"
   ],
   "note": "Throws iff clash proved for every pattern accepted at compile time, C unchanged; accepted calls return normally for the patterns of C15_einsum, others can fail (C19-C21 refutations)."
  },
  {
   "property": "C25",
   "status": "partial",
   "theorems": [
    "Einsums.Props.C25_empty_inner",
    "Einsums.Props.C25_gemm_partial",
    "Einsums.Props.C25_refuted",
    "Einsums.Props.C25_refuted_view"
   ],
   "note": "Proved for all sizes, leading dimensions and transposes with inner dimension != 0 and last stride 1; refuted when the inner dimension is 0 (C is not scaled) and for views with last stride != 1."
  },
  {
   "property": "C26",
   "status": "partial",
   "theorems": [
    "Einsums.Props.C26_gemv_empty",
    "Einsums.Props.C26_gemv_partial",
    "Einsums.Props.C26_gemv_refuted",
    "Einsums.Props.C26_ger",
    "Einsums.Props.C26_ger_throws"
   ],
   "note": "gemv proved for non-empty matrices, refuted for matrices with no columns (y not scaled); ger proved in full with its error cases."
  },
  {
   "property": "C27",
   "status": "partial",
   "theorems": [
    "Einsums.Props.C27_refuted",
    "Einsums.Props.C27_sort_partial"
   ],
   "note": "Every permutation, dims, prefactors, HPTT or loop, any iteration order; missing identical label lists with strided operands, refuted."
  },
  {
   "property": "C28",
   "status": "partial",
   "theorems": [
    "Einsums.Props.C28_bijection",
    "Einsums.Props.C28_rank1_refuted",
    "Einsums.Props.C28_unfold_partial"
   ],
   "note": "Every rank >= 2, mode and iteration order, plus the bijection of positions; refuted for rank 1 (the result is never written)."
  },
  {
   "property": "C29",
   "status": "partial",
   "theorems": [
    "Einsums.Props.C29_khatri_rao_partial",
    "Einsums.Props.C29_refuted_empty",
    "Einsums.Props.C29_refuted_order",
    "Einsums.Props.C29_rejects"
   ],
   "note": "Operands labelled (own, common): proved for all ranks and dims > 0, plus rejection on mismatch; refuted for other label orders and empty dims."
  },
  {
   "property": "C30",
   "status": "proved",
   "theorems": [
    "Einsums.Props.C30_cover",
    "Einsums.Props.C30_local",
    "Einsums.Props.C30_throws",
    "Einsums.Props.C30_tile_of"
   ],
   "note": "Every rank, partition (also empty intervals) and index, including negative indices and rejection."
  },
  {
   "property": "C31",
   "status": "partial",
   "theorems": [
    "Einsums.Props.C31_add",
    "Einsums.Props.C31_add_scalar_partial",
    "Einsums.Props.C31_add_throws",
    "Einsums.Props.C31_assign",
    "Einsums.Props.C31_assign_self",
    "Einsums.Props.C31_assign_self_refuted",
    "Einsums.Props.C31_fresh",
    "Einsums.Props.C31_has_tile",
    "Einsums.Props.C31_has_tile_container_refuted",
    "Einsums.Props.C31_history",
    "Einsums.Props.C31_set_all_partial",
    "Einsums.Props.C31_set_all_throws",
    "Einsums.Props.C31_step",
    "Einsums.Props.C31_sub",
    "Einsums.Props.C31_to_dense"
   ],
   "note": "Every history of writes, reads, tile creations, zero and scaling, plus conversion, assignment and +=/-= of tiled tensors; refuted: self-assignment zeroes the tensor, set_all and +=/-= of a scalar throw when a tile is absent, has_tile with a container rejects negative coordinates."
  },
  {
   "property": "C32",
   "status": "proved",
   "theorems": [
    "Einsums.Props.C32_gemm",
    "Einsums.Props.C32_gemm_throws"
   ],
   "note": "Every partition, sparsity, transposition and loop order over any commutative semiring; mismatched partitions rejected."
  },
  {
   "property": "C33",
   "status": "partial",
   "theorems": [
    "Einsums.Props.C33_dot_partial",
    "Einsums.Props.C33_dot_refuted",
    "Einsums.Props.C33_dot_throws",
    "Einsums.Props.C33_dot_visited",
    "Einsums.Props.C33_true_dot_partial",
    "Einsums.Props.C33_true_dot_refuted"
   ],
   "note": "Proved for palindromic grids (all vectors, square grids; true_dot up to rank 2) and exact description of the tiles visited; refuted for a 1x2 grid (dot) and a 2x2x2 grid (true_dot)."
  },
  {
   "property": "C34",
   "status": "partial",
   "theorems": [
    "Einsums.Props.C34_assign",
    "Einsums.Props.C34_block_of",
    "Einsums.Props.C34_compound",
    "Einsums.Props.C34_compound_throws",
    "Einsums.Props.C34_const_read_partial",
    "Einsums.Props.C34_const_read_refuted",
    "Einsums.Props.C34_construct",
    "Einsums.Props.C34_copy",
    "Einsums.Props.C34_data",
    "Einsums.Props.C34_dense",
    "Einsums.Props.C34_history",
    "Einsums.Props.C34_read",
    "Einsums.Props.C34_read_out"
   ],
   "note": "Histories of pushes, inserts, writes, reads and scalings; construction, copy, assignment, block_of, dense conversion and compound assignment in any loop order; exact out-of-range behaviour. Refuted for reading an off-block element of a const tensor (dangling reference)."
  },
  {
   "property": "C35",
   "status": "proved",
   "theorems": [
    "Einsums.Props.C35_gemm",
    "Einsums.Props.C35_gemm_throws"
   ],
   "note": "Every list of block sizes, transposition and loop order over any commutative semiring; different numbers of blocks rejected."
  },
  {
   "property": "C36",
   "status": "partial",
   "theorems": [
    "Einsums.Props.C36_index_refuted",
    "Einsums.Props.C36_queue",
    "Einsums.Props.C36_slots"
   ],
   "note": "Bounded-queue behaviour of put/reset/size/empty/full/[] for every capacity >= 1 and history; refuted that [i] is the i-th oldest value after wrap-around."
  },
  {
   "property": "C37",
   "status": "partial",
   "theorems": [
    "Einsums.Props.C37_history",
    "Einsums.Props.C37_initialize",
    "Einsums.Props.C37_nested",
    "Einsums.Props.C37_threads",
    "Einsums.Props.C37_unmatched_refuted"
   ],
   "note": "Every history of push/pop/pop(elapsed) by any threads refines the log of completed calls; nested programs restore the current timer. Refuted for an unmatched pop, which disables all later timers."
  },
  {
   "property": "C38",
   "status": "proved",
   "theorems": [
    "Einsums.Props.C38_idempotent",
    "Einsums.Props.C38_sides",
    "Einsums.Props.C38_space",
    "Einsums.Props.C38_trim"
   ],
   "note": "Every byte string; white space as in the C locale."
  },
  {
   "property": "C39",
   "status": "proved",
   "theorems": [
    "Einsums.Props.C39_minimal_refuted",
    "Einsums.Props.C39_overflow_refuted",
    "Einsums.Props.C39_request",
    "Einsums.Props.C39_zero"
   ],
   "note": "Requests up to max_size(), which is all std::vector makes; padding of aligned sizes and wrap-around above max_size() shown by witnesses."
  },
  {
   "property": "C40",
   "status": "partial",
   "theorems": [
    "Einsums.Props.C40_field_partial",
    "Einsums.Props.C40_field_refuted",
    "Einsums.Props.C40_int_partial",
    "Einsums.Props.C40_int_refuted",
    "Einsums.Props.C40_large_refuted"
   ],
   "note": "Right exactly when step divides stop-start (ordered field and signed integers, < 2^31 elements); otherwise every call overruns its result (proved), also for 2^32 elements. Floating-point rounding not modelled."
  },
  {
   "property": "C41",
   "status": "partial",
   "theorems": [
    "Einsums.Props.C41_identity_partial",
    "Einsums.Props.C41_refuted"
   ],
   "note": "Exact characterisation: right iff no dimension is smaller than the first. Refuted otherwise (wrong element or out-of-range write)."
  },
  {
   "property": "C42",
   "status": "proved",
   "theorems": [
    "Einsums.Props.C42_parafac_reconstruct"
   ],
   "note": "All shapes, ranks, contents, schedules; over a commutative semiring (rounding not modelled)."
  },
  {
   "property": "C43",
   "status": "proved",
   "theorems": [
    "Einsums.Props.C43_tucker_reconstruct"
   ],
   "note": "All shapes, ranks and contents; over a commutative semiring."
  },
  {
   "property": "C44",
   "status": "proved",
   "theorems": [
    "Einsums.Props.C44_orders"
   ],
   "note": "Two or more non-empty modes: the code itself is wrong for one mode (C28) and for empty dimensions (C29)."
  },
  {
   "property": "C45",
   "status": "proved",
   "theorems": [
    "Einsums.Props.C45_derivative",
    "Einsums.Props.C45_value",
    "Einsums.Props.C45_value_empty"
   ],
   "note": "Exact arithmetic over a field of characteristic 0. An empty list of coefficients is undefined behaviour in value (proved)."
  },
  {
   "property": "C46",
   "status": "partial",
   "theorems": [
    "Einsums.Props.C46_convert",
    "Einsums.Props.C46_delta",
    "Einsums.Props.C46_read_partial",
    "Einsums.Props.C46_view_arguments_refuted",
    "Einsums.Props.C46_wide_index_refuted"
   ],
   "note": "Indices of type int and valid view arguments; wider indices and invalid view arguments are refuted. Lifetime of the viewed tensor is outside the model."
  },
  {
   "property": "C47",
   "status": "partial",
   "theorems": [
    "Einsums.Props.C47_dangling",
    "Einsums.Props.C47_refuted",
    "Einsums.Props.C47_shape",
    "Einsums.Props.C47_value_partial"
   ],
   "note": "As long as the sub-expressions exist and the element reads are in range; refuted for expressions kept in a variable (dangling pointers) and for operands of different shapes."
  },
  {
   "property": "C48",
   "status": "partial",
   "theorems": [
    "Einsums.Props.C48_max_partial",
    "Einsums.Props.C48_min_partial",
    "Einsums.Props.C48_nan_refuted",
    "Einsums.Props.C48_sum_partial",
    "Einsums.Props.C48_sum_refuted"
   ],
   "note": "All shapes, strides and thread counts while the int counters do not overflow. Refuted: sum of 2^32 ones is 0; max with a NaN depends on the thread count."
  },
  {
   "property": "C49",
   "status": "proved",
   "theorems": [
    "Einsums.Props.C49_indices"
   ],
   "note": ""
  },
  {
   "property": "C50",
   "status": "partial",
   "theorems": [
    "Einsums.Props.C50_balanced",
    "Einsums.Props.C50_clamp_refuted",
    "Einsums.Props.C50_lines",
    "Einsums.Props.C50_lines_exist",
    "Einsums.Props.C50_nul_refuted",
    "Einsums.Props.C50_suppress",
    "Einsums.Props.C50_thread_id_refuted"
   ],
   "note": "All texts, histories, sinks and threads. Refuted: a deindent at level 0 is lost, always_print_thread_id has no effect, println cuts lines at NUL."
  },
  {
   "property": "C51",
   "status": "proved",
   "theorems": [
    "Einsums.Props.C51_element",
    "Einsums.Props.C51_element_rejects",
    "Einsums.Props.C51_element_transform",
    "Einsums.Props.C51_view_compound",
    "Einsums.Props.C51_view_fill"
   ],
   "note": "Fill, compound assignment, element_transform, element: every view, every iteration order, storage outside unchanged; shape mismatch rejected."
  },
  {
   "property": "C52",
   "status": "partial",
   "theorems": [
    "Einsums.Props.C52_axpby_partial",
    "Einsums.Props.C52_axpy_partial",
    "Einsums.Props.C52_axpy_refuted",
    "Einsums.Props.C52_scale_partial",
    "Einsums.Props.C52_scale_refuted"
   ],
   "note": "Proved for row-major tensors and views; refuted for strided views (scale touches foreign elements, axpy writes out of range)."
  },
  {
   "property": "C53",
   "status": "partial",
   "theorems": [
    "Einsums.Props.C53_direct_partial",
    "Einsums.Props.C53_direct_refuted",
    "Einsums.Props.C53_direct_updated"
   ],
   "note": "Proved for beta = 1 or when all tiles of A and B exist, and the exact set of updated elements; refuted for an absent tile with beta = 0."
  },
  {
   "property": "C54",
   "status": "proved",
   "theorems": [
    "Einsums.Props.C54_gemv"
   ],
   "note": "Dense vectors; the variant with tiled vectors does not compile."
  },
  {
   "property": "C55",
   "status": "proved",
   "theorems": [
    "Einsums.Props.C55_true_dot"
   ],
   "note": "All three code paths."
  },
  {
   "property": "C56",
   "status": "partial",
   "theorems": [
    "Einsums.Props.C56_axpby",
    "Einsums.Props.C56_axpy",
    "Einsums.Props.C56_scale",
    "Einsums.Props.C56_scale_column_refuted",
    "Einsums.Props.C56_scale_row",
    "Einsums.Props.C56_throws"
   ],
   "note": "scale, scale_row, axpy, axpby proved; scale_column refuted (scales the whole block or writes out of bounds)."
  },
  {
   "property": "C57",
   "status": "proved",
   "theorems": [
    "Einsums.Props.C57_dot",
    "Einsums.Props.C57_true_dot"
   ],
   "note": "Same and different block structures, any loop order."
  },
  {
   "property": "C58",
   "status": "proved",
   "theorems": [
    "Einsums.Props.C58_direct"
   ],
   "note": "Same block sizes, any rank and loop order."
  },
  {
   "property": "C59",
   "status": "partial",
   "theorems": [
    "Einsums.Props.C59_ndigits_partial",
    "Einsums.Props.C59_zero_refuted"
   ],
   "note": "Every non-zero number; refuted for zero."
  },
  {
   "property": "C60",
   "status": "partial",
   "theorems": [
    "Einsums.Props.C60_overlap_refuted",
    "Einsums.Props.C60_section",
    "Einsums.Props.C60_untimed"
   ],
   "note": "Well-nested sections; refuted for sections that overlap (times exchanged)."
  },
  {
   "property": "C61",
   "status": "proved",
   "theorems": [
    "Einsums.Props.C61_progress",
    "Einsums.Props.C61_whole_lines"
   ],
   "note": "Any number of threads and any schedule, and absence of deadlock. The unsynchronised read of the indentation string is outside the model."
  },
  {
   "property": "C62",
   "status": "partial",
   "theorems": [
    "Einsums.Props.C62_deep_refuted",
    "Einsums.Props.C62_report_partial",
    "Einsums.Props.C62_uninitialised_refuted"
   ],
   "note": "Up to an indentation of 70; refuted for deeper nesting (throws) and before initialize (null dereference)."
  },
  {
   "property": "C63",
   "status": "partial",
   "theorems": [
    "Einsums.Props.C63_max_partial",
    "Einsums.Props.C63_max_refuted",
    "Einsums.Props.C63_min_partial",
    "Einsums.Props.C63_no_blocks_refuted",
    "Einsums.Props.C63_sum"
   ],
   "note": "sum proved outright. max/min right when some stored element is >= 0 / <= 0; refuted otherwise (implicit zeros ignored) and for no blocks (UB)."
  },
  {
   "property": "C64",
   "status": "partial",
   "theorems": [
    "Einsums.Props.C64_block_partial",
    "Einsums.Props.C64_block_refuted",
    "Einsums.Props.C64_new_tensor"
   ],
   "note": "Tensors and views, every thread count and interleaving. Block tensors when f(0)=0; refuted for f(0) != 0 (exp, invert): implicit zeros stay zero."
  },
  {
   "property": "C65",
   "status": "partial",
   "theorems": [
    "Einsums.Props.C65_diagonal",
    "Einsums.Props.C65_diagonal_like_partial",
    "Einsums.Props.C65_diagonal_like_refuted",
    "Einsums.Props.C65_incremented",
    "Einsums.Props.C65_ones"
   ],
   "note": "diagonal_like requires the vector to fit the diagonal; refuted otherwise. The rest is proved outright (exact addition)."
  },
  {
   "property": "C66",
   "status": "partial",
   "theorems": [
    "Einsums.Props.C66_norm_partial",
    "Einsums.Props.C66_norm_refuted",
    "Einsums.Props.C66_rmsd",
    "Einsums.Props.C66_weight"
   ],
   "note": "rmsd and weight_tensor proved outright; norm right for real elements, refuted for complex ones."
  },
  {
   "property": "C67",
   "status": "proved",
   "theorems": [
    "Einsums.Props.C67_core",
    "Einsums.Props.C67_core_of_reconstruction",
    "Einsums.Props.C67_reconstruction_of_core"
   ],
   "note": "Factors are an argument with the orthonormality the SVD provides; exact arithmetic."
  },
  {
   "property": "C68",
   "status": "proved",
   "theorems": [
    "Einsums.Props.C68_parafac_monotone",
    "Einsums.Props.C68_update_is_least_squares"
   ],
   "note": "Exact arithmetic over an ordered ring; xGESV assumed to meet its contract, its info recorded as a ghost flag; starting factors and convergence test arbitrary."
  },
  {
   "property": "C69",
   "status": "partial",
   "theorems": [
    "Einsums.Props.C69_auto_dimension_partial",
    "Einsums.Props.C69_auto_dimension_refuted"
   ],
   "note": "Sizes and strides below 2^24; refuted beyond, for every rounding of ties. Flattening of matrices is used in C70."
  },
  {
   "property": "C70",
   "status": "partial",
   "theorems": [
    "Einsums.Props.C70_companion_large_refuted",
    "Einsums.Props.C70_companion_partial",
    "Einsums.Props.C70_companion_refuted",
    "Einsums.Props.C70_companion_throws"
   ],
   "note": "Proved for degree 1 and for multiples of L_n with n < 4096; refuted for series with lower coefficients and, at degree 4098, for the last diagonal element."
  },
  {
   "property": "C71",
   "status": "proved",
   "theorems": [
    "Einsums.Props.C71_domain",
    "Einsums.Props.C71_domain_empty"
   ],
   "note": "Real element types; the function does not compile for complex ones."
  },
  {
   "property": "C72",
   "status": "partial",
   "theorems": [
    "Einsums.Props.C72_full_view_partial",
    "Einsums.Props.C72_full_view_refuted"
   ],
   "note": "Views made with a name; refuted for the views made by operator(), which always report to be full."
  },
  {
   "property": "C73",
   "status": "partial",
   "theorems": [
    "Einsums.Props.C73_reversed_partial",
    "Einsums.Props.C73_reversed_refuted"
   ],
   "note": "What a reversed iterator yields is proved; the claim is refuted for every tensor with at least two elements."
  },
  {
   "property": "C74",
   "status": "partial",
   "theorems": [
    "Einsums.Props.C74_accepts",
    "Einsums.Props.C74_history",
    "Einsums.Props.C74_rejects",
    "Einsums.Props.C74_view_partial",
    "Einsums.Props.C74_view_refuted"
   ],
   "note": "Tensors in full; views for at least as many indices as the rank. Refuted: a view accepts fewer indices in a container, and V(i) with one ptrdiff_t checks nothing."
  },
  {
   "property": "C75",
   "status": "partial",
   "theorems": [
    "Einsums.Props.C75_defined",
    "Einsums.Props.C75_empty_refuted",
    "Einsums.Props.C75_ints_partial",
    "Einsums.Props.C75_ints_rejects",
    "Einsums.Props.C75_minus_one_refuted",
    "Einsums.Props.C75_negative_end_refuted",
    "Einsums.Props.C75_rejects_partial",
    "Einsums.Props.C75_slice_partial",
    "Einsums.Props.C75_wrapped_twice_refuted"
   ],
   "note": "Ranges with non-negative start below the end, non-empty tensors, views below 2^31 elements. Refuted: negative range bounds throw, Range{-1,b} is taken for the integer b, integers in [-2d,-d) are accepted, every view of an empty tensor throws."
  },
  {
   "property": "C76",
   "status": "partial",
   "theorems": [
    "Einsums.Props.C76_large_refuted",
    "Einsums.Props.C76_shape_refuted",
    "Einsums.Props.C76_tensor_partial",
    "Einsums.Props.C76_view_map",
    "Einsums.Props.C76_view_zip"
   ],
   "note": "Views whose _size is right (below 2^31 elements); sources do not overlap the destination. Refuted: tensors of equal size and different shape are combined, set_all on a 65536 x 65536 view does nothing."
  },
  {
   "property": "C77",
   "status": "partial",
   "theorems": [
    "Einsums.Props.C77_assign",
    "Einsums.Props.C77_assign_strided_partial",
    "Einsums.Props.C77_assign_strided_refuted",
    "Einsums.Props.C77_assign_to_view",
    "Einsums.Props.C77_of_tensor_partial",
    "Einsums.Props.C77_of_view"
   ],
   "note": "Refuted for strided TensorViews and for strided runtime views of another element type."
  },
  {
   "property": "C78",
   "status": "partial",
   "theorems": [
    "Einsums.Props.C78_rank1",
    "Einsums.Props.C78_reshape_partial",
    "Einsums.Props.C78_reshape_refuted"
   ],
   "note": "Tensors of the same number of elements. Refuted: strides of the source are ignored, the number of elements is not checked, to_rank_1_view of a rank 0 tensor is empty."
  },
  {
   "property": "C79",
   "status": "partial",
   "theorems": [
    "Einsums.Props.C79_generic_partial",
    "Einsums.Props.C79_generic_threads_partial",
    "Einsums.Props.C79_not_parallel",
    "Einsums.Props.C79_not_scalar",
    "Einsums.Props.C79_rank_mismatch"
   ],
   "note": "One thread: any labels and strides. Several threads: when every label of A and B is in C. Refuted: two threads lose an update, a scalar C reads C_dims[0] of an empty vector. C does not overlap A or B."
  },
  {
   "property": "C80",
   "status": "partial",
   "theorems": [
    "Einsums.Props.C80_direct_partial",
    "Einsums.Props.C80_dot_partial",
    "Einsums.Props.C80_not_scalar"
   ],
   "note": "At least one label. Refuted for empty index strings, compiled to a dot product that reads shape[0] of an empty vector."
  },
  {
   "property": "C81",
   "status": "partial",
   "theorems": [
    "Einsums.Props.C81_not_empty",
    "Einsums.Props.C81_not_general",
    "Einsums.Props.C81_not_scaled",
    "Einsums.Props.C81_outer_partial"
   ],
   "note": "C_prefactor 0 or 1, blocks of labels, contiguous buffers. Refuted: any other C_prefactor overruns C (bytes counted as elements), interleaved labels are stored transposed, labels missing from C are not summed, an empty last block throws."
  },
  {
   "property": "C82",
   "status": "partial",
   "theorems": [
    "Einsums.Props.C82_gemv_partial",
    "Einsums.Props.C82_not_general",
    "Einsums.Props.C82_not_more_targets"
   ],
   "note": "As many labels summed as kept. Refuted: more kept than summed reads outside a vector for all tensors, fewer gives a wrong sum, labels of one operand only are ignored."
  },
  {
   "property": "C83",
   "status": "partial",
   "theorems": [
    "Einsums.Props.C83_gemm_partial",
    "Einsums.Props.C83_not_general",
    "Einsums.Props.C83_not_more_targets",
    "Einsums.Props.C83_not_transposed"
   ],
   "note": "A keeps as many labels as are summed, B at most as many, transposed operands square. Refuted: more kept labels always undefined, transposed non-square operands rejected or written outside C, labels of one operand only ignored."
  },
  {
   "property": "C84",
   "status": "partial",
   "theorems": [
    "Einsums.Props.C84_not_checked"
   ],
   "note": "Refuted: nothing compares dimensions; only the ranks are checked in the generic plan (C79_rank_mismatch). No positive theorem: the check does not exist."
  },
  {
   "property": "C85",
   "status": "partial",
   "theorems": [
    "Einsums.Props.C85_compile_partial",
    "Einsums.Props.C85_not_total"
   ],
   "note": "Proved when the first operand shares a label with C or with the second operand. Refuted when it shares none and C has the labels of B."
  },
  {
   "property": "C86",
   "status": "partial",
   "theorems": [
    "Einsums.Props.C86_defined",
    "Einsums.Props.C86_element_partial",
    "Einsums.Props.C86_empty_refuted",
    "Einsums.Props.C86_negative_refuted",
    "Einsums.Props.C86_rejects",
    "Einsums.Props.C86_set_partial",
    "Einsums.Props.C86_single_partial",
    "Einsums.Props.C86_single_refuted",
    "Einsums.Props.C86_view_partial"
   ],
   "note": "Integers that are not negative, slices with step 1 that select something, single integers in range. Proved for all: what is rejected, and that no tuple is undefined. Refuted: negative integers in tuples throw while 2^64-1 is taken for -1; t[k] on a vector is not checked (neighbouring elements, or undefined); empty slices throw."
  },
  {
   "property": "C87",
   "status": "partial",
   "theorems": [
    "Einsums.Props.C87_empty_refuted",
    "Einsums.Props.C87_iter_refuted",
    "Einsums.Props.C87_turn_partial",
    "Einsums.Props.C87_walk_partial"
   ],
   "note": "Tensors with at least one element and fewer than 2^63. Refuted: iterating over a tensor without elements throws; iter(it) is a copy that does not advance it."
  },
  {
   "property": "C88",
   "status": "partial",
   "theorems": [
    "Einsums.Props.C88_assign_partial",
    "Einsums.Props.C88_construct_partial",
    "Einsums.Props.C88_failed_assign_refuted",
    "Einsums.Props.C88_op_partial",
    "Einsums.Props.C88_record_refuted"
   ],
   "note": "Buffers with strides that are multiples of the item size, negative ones included. Refuted: other strides (fields of records) read wrong bytes; assign with an unsupported format throws after changing shape and storage."
  },
  {
   "property": "C89",
   "status": "partial",
   "theorems": [
    "Einsums.Props.C89_view_partial",
    "Einsums.Props.C89_view_refuted"
   ],
   "note": "Buffers with at least one axis and strides that are non-negative multiples of the item size. Refuted: no axes undefined, other strides rounded."
  },
  {
   "property": "C90",
   "status": "partial",
   "theorems": [
    "Einsums.Props.C90_export",
    "Einsums.Props.C90_setitem_partial",
    "Einsums.Props.C90_setitem_rejects",
    "Einsums.Props.C90_view_partial"
   ],
   "note": "Aligned buffers, subscripts as in C86. Export and rejections proved for all."
  },
  {
   "property": "C91",
   "status": "partial",
   "theorems": [
    "Einsums.Props.C91_einsum_partial",
    "Einsums.Props.C91_elementwise_refuted",
    "Einsums.Props.C91_partition_refuted"
   ],
   "note": "Each label has one partition; label conditions as in C15. Refuted: labels partitioned differently give a wrong result although the dimensions agree and the check passes; the element-wise pattern with a missing tile does not scale C (C53)."
  },
  {
   "property": "C92",
   "status": "partial",
   "theorems": [
    "Einsums.Props.C92_dot_refuted",
    "Einsums.Props.C92_scalar_partial"
   ],
   "note": "Each label has one partition; where the pattern is a dot product the grid reads the same backwards. Refuted: the dot pattern on a 1x2 grid (C33)."
  },
  {
   "property": "C93",
   "status": "partial",
   "theorems": [
    "Einsums.Props.C93_block_partial",
    "Einsums.Props.C93_throws"
   ],
   "note": "Label conditions as in C15, and a label common to A and B; throwing on different blocks proved outside the element-wise pattern. Without a common label no overload exists."
  },
  {
   "property": "C94",
   "status": "partial",
   "theorems": [
    "Einsums.Props.C94_dot",
    "Einsums.Props.C94_refuted",
    "Einsums.Props.C94_scalar_partial",
    "Einsums.Props.C94_value"
   ],
   "note": "Exact value for every input; right for the dot pattern (blocks may even differ) and where C_prefactor*C is 0. Refuted: elsewhere the scaled C is counted twice."
  },
  {
   "property": "C95",
   "status": "partial",
   "theorems": [
    "Einsums.Props.C95_outer_refuted",
    "Einsums.Props.C95_scalar_partial",
    "Einsums.Props.C95_scalar_refuted",
    "Einsums.Props.C95_scalar_value",
    "Einsums.Props.C95_vector_partial"
   ],
   "note": "The vector's label is one of the block tensor's; either order, strided vectors. Refuted: otherwise elements between the blocks are lost without an error; a scalar C is counted twice."
  },
  {
   "property": "C96",
   "status": "partial",
   "theorems": [
    "Einsums.Props.C96_block_refuted",
    "Einsums.Props.C96_mixed_partial",
    "Einsums.Props.C96_offblock_refuted",
    "Einsums.Props.C96_stored"
   ],
   "note": "Every element stored in C; every element at all if C is tiled or its labels all belong to one block operand. Label conditions as in C15. Refuted: a block tensor C with two tiled operands is only scaled; with one tiled operand the elements between the blocks are lost without an error."
  },
  {
   "property": "C97",
   "status": "partial",
   "theorems": [
    "Einsums.Props.C97_matrix_refuted",
    "Einsums.Props.C97_missing_refuted",
    "Einsums.Props.C97_vector_partial"
   ],
   "note": "Vectors, with C_prefactor 1 or all tiles present. Refuted: for matrices block i meets tile (i,0); a missing tile leaves C unscaled."
  },
  {
   "property": "C98",
   "status": "partial",
   "theorems": [
    "Einsums.Props.C98_q_partial",
    "Einsums.Props.C98_qr",
    "Einsums.Props.C98_tall_refuted",
    "Einsums.Props.C98_wide_refuted"
   ],
   "note": "qr for every shape; q for square matrices. Refuted for all others: with fewer rows than columns q reads outside the storage, with more rows LAPACK rejects the call and the program aborts."
  },
  {
   "property": "C99",
   "status": "partial",
   "theorems": [
    "Einsums.Props.C99_all",
    "Einsums.Props.C99_overwrite_refuted",
    "Einsums.Props.C99_overwrite_wide",
    "Einsums.Props.C99_some_partial"
   ],
   "note": "All and Some vectors for every shape. Refuted for Overwrite: with at least as many rows as columns U is zero, with more columns (and two rows or more) the program aborts. LAPACK's positive info (no convergence) is ignored by the code; the theorems take convergence as the contract."
  },
  {
   "property": "C100",
   "status": "partial",
   "theorems": [
    "Einsums.Props.C100_gesvd_partial",
    "Einsums.Props.C100_svd_refuted",
    "Einsums.Props.C100_vector_refuted"
   ],
   "note": "The gesvd wrapper with a superb of min(m,n)-1 elements. Refuted for every matrix: svd and svd_nullspace allocate min(m,n)-2, so the wrapper writes outside the storage, or the size wraps round and they throw."
  },
  {
   "property": "C101",
   "status": "partial",
   "theorems": [
    "Einsums.Props.C101_det_partial",
    "Einsums.Props.C101_interchange_refuted",
    "Einsums.Props.C101_not_square",
    "Einsums.Props.C101_refuted",
    "Einsums.Props.C101_singular",
    "Einsums.Props.C101_zero_corner_refuted"
   ],
   "note": "Singular and non-square matrices; triangular matrices without row interchanges. Refuted: after any row interchange det does not end (so for every regular matrix whose first element is 0); otherwise it multiplies the diagonal of the argument instead of that of the factor, e.g. det [[2,1],[1,1]] is 2. A 0x0 matrix is left out (LAPACK rejects the leading dimension 0)."
  },
  {
   "property": "C102",
   "status": "partial",
   "theorems": [
    "Einsums.Props.C102_getrf_partial",
    "Einsums.Props.C102_getrf_refuted",
    "Einsums.Props.C102_invert_partial",
    "Einsums.Props.C102_plu_refuted",
    "Einsums.Props.C102_view_refuted"
   ],
   "note": "Square matrices and views with unit stride along the rows (so most slices). Refuted: other views (A(All,All,0) of rank 3) invert the wrong elements; getrf of a wide matrix works outside the storage, of a tall one stops; getrf factors the transpose, so P L U is not A."
  },
  {
   "property": "C103",
   "status": "partial",
   "theorems": [
    "Einsums.Props.C103_norm_partial",
    "Einsums.Props.C103_one_refuted",
    "Einsums.Props.C103_shape_refuted"
   ],
   "note": "MaxAbs and Frobenius for square matrices and views with unit stride along the rows. Refuted: One gives the largest row sum and Infinity the largest column sum (the documentation says the function assumes column-major storage, which no tensor has); for other shapes the call is undefined."
  },
  {
   "property": "C104",
   "status": "partial",
   "theorems": [
    "Einsums.Props.C104_refuted",
    "Einsums.Props.C104_symm_gemm_partial"
   ],
   "note": "Release builds (NDEBUG) and square B in debug builds; A and B tensors or views with unit stride along the rows, C a tensor other than A and B. Refuted: in a debug build every rectangular B of the right shape fails an assertion."
  },
  {
   "property": "C105",
   "status": "partial",
   "theorems": [
    "Einsums.Props.C105_range_refuted",
    "Einsums.Props.C105_scale_column_partial",
    "Einsums.Props.C105_scale_row_partial"
   ],
   "note": "Row and column numbers in range. Refuted: a number out of range is not checked and changes elements outside the view."
  },
  {
   "property": "C106",
   "status": "partial",
   "theorems": [
    "Einsums.Props.C106_empty_refuted",
    "Einsums.Props.C106_lower",
    "Einsums.Props.C106_new_partial",
    "Einsums.Props.C106_stride_refuted",
    "Einsums.Props.C106_syev_partial",
    "Einsums.Props.C106_triangle_refuted",
    "Einsums.Props.C106_values_partial"
   ],
   "note": "Symmetric non-empty matrices and views with unit stride along the rows, W contiguous; the eigenvectors are the rows of A. Refuted: the lower triangle is read, not the upper one; a strided W gets the values in the wrong places; LAPACK rejects the empty matrix."
  },
  {
   "property": "C107",
   "status": "partial",
   "theorems": [
    "Einsums.Props.C107_cutoff_refuted",
    "Einsums.Props.C107_eigenvectors_partial",
    "Einsums.Props.C107_empty_refuted",
    "Einsums.Props.C107_inverse_partial",
    "Einsums.Props.C107_power_partial",
    "Einsums.Props.C107_root_partial"
   ],
   "note": "Symmetric non-empty real tensors; with the cutoff as implemented. std::pow is an argument. The complex overload calls a function that does not exist (hyev) and does not compile. Refuted: the cutoff is relative to the largest eigenvalue and ignored for non-negative powers; LAPACK rejects the empty matrix."
  },
  {
   "property": "C108",
   "status": "partial",
   "theorems": [
    "Einsums.Props.C108_equation",
    "Einsums.Props.C108_refuted",
    "Einsums.Props.C108_scale_refuted",
    "Einsums.Props.C108_shapes",
    "Einsums.Props.C108_symmetric_partial"
   ],
   "note": "Symmetric A and an xTRSYL that does not scale. Refuted: for other A the equation solved is A X + X A = Q; when xTRSYL scales by s the result is s^2 times the solution. The hypothesis on xTRSYL (INFO = 0) is that it solves the equation for the Schur factors of A, i.e. that the solution is unique."
  },
  {
   "property": "C109",
   "status": "partial",
   "theorems": [
    "Einsums.Props.C109_exact_partial",
    "Einsums.Props.C109_refuted",
    "Einsums.Props.C109_svd_partial"
   ],
   "note": "k + 5 <= number of rows (the oversampling of 5 is built in). Refuted: for every matrix with fewer than k + 5 rows the QR call is rejected, e.g. a 5x5 matrix and any k > 0. Vt has all n rows, U k + 5 columns: not truncated to k."
  },
  {
   "property": "C110",
   "status": "partial",
   "theorems": [
    "Einsums.Props.C110_exact_partial",
    "Einsums.Props.C110_refuted",
    "Einsums.Props.C110_rejects",
    "Einsums.Props.C110_syev_partial"
   ],
   "note": "k + 5 <= n. Refuted: for every larger k the QR call is rejected. U has k + 5 columns, w k + 5 values: not truncated to k."
  },
  {
   "property": "C111",
   "status": "partial",
   "theorems": [
    "Einsums.Props.C111_double_refuted",
    "Einsums.Props.C111_float_partial",
    "Einsums.Props.C111_geev_partial",
    "Einsums.Props.C111_stride_refuted"
   ],
   "note": "Contiguous rows with large enough leading dimensions; W up to rounding to float. Refuted: for matrices of double the eigenvalues stored are rounded to float (Vendor.cpp casts both parts); for views with too small a leading dimension (transposed views) geev returns normally and nothing is computed. Complex eigenvectors stay packed in pairs of real columns as in LAPACK."
  },
  {
   "property": "C112",
   "status": "partial",
   "theorems": [
    "Einsums.Props.C112_dot3_partial",
    "Einsums.Props.C112_refuted",
    "Einsums.Props.C112_vector_partial"
   ],
   "note": "Tensors and views with the layout of a tensor; vectors of any stride. Refuted: other views of rank two or more are flattened with stride 1, so dot over the left half of a matrix adds elements outside the view."
  },
  {
   "property": "C113",
   "status": "proved",
   "theorems": [
    "Einsums.Props.C113_dot",
    "Einsums.Props.C113_dot_shapes",
    "Einsums.Props.C113_gemm",
    "Einsums.Props.C113_gemm_shapes",
    "Einsums.Props.C113_gemv",
    "Einsums.Props.C113_gemv_shapes",
    "Einsums.Props.C113_ger",
    "Einsums.Props.C113_ger_shapes",
    "Einsums.Props.C113_scale"
   ],
   "note": "The inputs are given by their elements (function tensors, chains of views, the Kronecker delta, stored tensors and views are shown to be such inputs); dimensions up to 2^31 where the multi-index is kept in int."
  },
  {
   "property": "C114",
   "status": "partial",
   "theorems": [
    "Einsums.Props.C114_direct_partial",
    "Einsums.Props.C114_refuted",
    "Einsums.Props.C114_shapes_partial"
   ],
   "note": "beta = 0. Refuted: beta is an unnamed parameter; for every beta and C with beta*C nonzero somewhere the result is wrong."
  },
  {
   "property": "C115",
   "status": "partial",
   "theorems": [
    "Einsums.Props.C115_empty_refuted",
    "Einsums.Props.C115_invert_partial"
   ],
   "note": "Blocks that are not empty. Refuted: with an empty block invert always stops with an error, whatever the other blocks are (the other functions skip empty blocks)."
  },
  {
   "property": "C116",
   "status": "partial",
   "theorems": [
    "Einsums.Props.C116_order_refuted",
    "Einsums.Props.C116_syev_partial"
   ],
   "note": "All but the order of the eigenvalues of different blocks; W contiguous. Refuted: the eigenvalues are ascending within a block only."
  },
  {
   "property": "C117",
   "status": "partial",
   "theorems": [
    "Einsums.Props.C117_cutoff_refuted",
    "Einsums.Props.C117_eigenvectors_partial",
    "Einsums.Props.C117_inverse_partial",
    "Einsums.Props.C117_power_partial",
    "Einsums.Props.C117_root_partial"
   ],
   "note": "alpha not negative, or no eigenvalue below the cutoff relative to any other. std::pow is an argument. Refuted: the cutoff is applied relative to the largest eigenvalue of each block, so small blocks are not cut off."
  },
  {
   "property": "C118",
   "status": "partial",
   "theorems": [
    "Einsums.Props.C118_assign_rejects",
    "Einsums.Props.C118_closed_partial",
    "Einsums.Props.C118_default_args",
    "Einsums.Props.C118_history_partial",
    "Einsums.Props.C118_negative_refuted",
    "Einsums.Props.C118_overlap_refuted",
    "Einsums.Props.C118_single_refuted"
   ],
   "note": "No negative arguments, more than one element along each selected axis, and views alive at the same time do not overlap. HDF5 is modelled by its contract (a data set is a shape and its elements); one call is one step, so a crash inside a write is not covered. Refuted for all disk tensors: two views of the same block, the one destroyed last restores its stale copy of the whole block; a selected axis with one element gives a tensor without elements into which the file is read; negative arguments, which tensors accept, throw."
  },
  {
   "property": "C119",
   "status": "partial",
   "theorems": [
    "Einsums.Props.C119_assign",
    "Einsums.Props.C119_history_partial",
    "Einsums.Props.C119_pointer_refuted",
    "Einsums.Props.C119_read_partial"
   ],
   "note": "All calls but operator=(const T *). Refuted: operator=(const T *) does not check for read-only and writes the file."
  },
  {
   "property": "C120",
   "status": "partial",
   "theorems": [
    "Einsums.Props.C120_larger_refuted",
    "Einsums.Props.C120_read_rejects",
    "Einsums.Props.C120_roundtrip_partial",
    "Einsums.Props.C120_smaller_refuted"
   ],
   "note": "New names and existing data sets of the same shape. Refuted: over a larger data set only the leading block is replaced and read returns the old shape; over a smaller one or one of another rank write throws. The version of write for tensor views uses the function state::data as a value and does not compile."
  },
  {
   "property": "C121",
   "status": "partial",
   "theorems": [
    "Einsums.Props.C121_create",
    "Einsums.Props.C121_empty_refuted",
    "Einsums.Props.C121_like_partial",
    "Einsums.Props.C121_like_refuted",
    "Einsums.Props.C121_open_partial",
    "Einsums.Props.C121_shape_refuted"
   ],
   "note": "Refuted: an existing data set of any other shape is accepted (views then throw or see a part); with the default chunk no disk tensor with an empty axis can be created; the constructor from a tensor looks for the name in the given file but opens it in state::data(). The rank of the new data set of that constructor (cdims.rank is never set) is taken to be right."
  },
  {
   "property": "C122",
   "status": "partial",
   "theorems": [
    "Einsums.Props.C122_complex_partial",
    "Einsums.Props.C122_real",
    "Einsums.Props.C122_real_rejects",
    "Einsums.Props.C122_short_refuted"
   ],
   "note": "Exact arithmetic; FFTW's transforms by contract. All of the real case; the complex case with a result of at least n elements. Refuted: for a complex signal and any shorter result nothing is refused and FFTW writes past the end of the storage."
  },
  {
   "property": "C123",
   "status": "partial",
   "theorems": [
    "Einsums.Props.C123_complex_partial",
    "Einsums.Props.C123_input_refuted",
    "Einsums.Props.C123_real_partial",
    "Einsums.Props.C123_real_rejects",
    "Einsums.Props.C123_roundtrip_complex",
    "Einsums.Props.C123_roundtrip_real",
    "Einsums.Props.C123_short_refuted"
   ],
   "note": "Exact arithmetic; FFTW's transforms by contract. Both round trips proved. Refuted: with complex numbers any a shorter than result is read past its end; to real numbers, FFTW's contract lets the constant input a be overwritten (no FFTW_PRESERVE_INPUT)."
  },
  {
   "property": "C124",
   "status": "partial",
   "theorems": [
    "Einsums.Props.C124_negative",
    "Einsums.Props.C124_partial",
    "Einsums.Props.C124_zero_refuted"
   ],
   "note": "n > 0, exact arithmetic. Refuted: fftfreq(0, d) writes one element past the end of the empty vector ((0-1)/2+1 is 1)."
  },
  {
   "property": "C125",
   "status": "partial",
   "theorems": [
    "Einsums.Props.C125_blocks_refuted",
    "Einsums.Props.C125_fewer_refuted",
    "Einsums.Props.C125_more_rejects",
    "Einsums.Props.C125_sort_partial"
   ],
   "note": "Same block sizes. If A has more blocks than C the call does not return normally (an exception leaves a parallel region). Refuted: block structures are not compared: a 2x2 block sorted into two 1x1 blocks writes past the end, and with fewer blocks in A the remaining blocks of C are left as they are. The version for tiled tensors does not compile."
  },
  {
   "property": "C126",
   "status": "partial",
   "theorems": [
    "Einsums.Props.C126_columns_refuted",
    "Einsums.Props.C126_empty_refuted",
    "Einsums.Props.C126_narrow_rejects",
    "Einsums.Props.C126_not_square_refuted",
    "Einsums.Props.C126_solve_partial",
    "Einsums.Props.C126_tall_refuted",
    "Einsums.Props.C126_viewA_refuted",
    "Einsums.Props.C126_viewB_refuted",
    "Einsums.Props.C126_wide_refuted"
   ],
   "note": "Tensors of fitting shapes, with X A = B. Too short rows of B stop the program (XERBLA). Refuted: A X = B; longer rows of B and an A with more columns than rows are not refused; with fewer columns the storage is overrun; views as A or B (dimensions are passed as leading dimensions); empty matrices stop the program."
  },
  {
   "property": "C127",
   "status": "partial",
   "theorems": [
    "Einsums.Props.C127_count_rejects",
    "Einsums.Props.C127_info_partial",
    "Einsums.Props.C127_race_refuted",
    "Einsums.Props.C127_sizes_refuted",
    "Einsums.Props.C127_solve_partial"
   ],
   "note": "For every interleaving when A is regular; the return value for singular A when the iterations do not overlap; another number of blocks throws. Refuted: the data race on info_out loses the report of a singular block; other block sizes are not refused."
  },
  {
   "property": "C128",
   "status": "proved",
   "theorems": [
    "Einsums.Props.C128_iterations",
    "Einsums.Props.C128_launch",
    "Einsums.Props.C128_owner",
    "Einsums.Props.C128_workers"
   ],
   "note": ""
  },
  {
   "property": "C129",
   "status": "partial",
   "theorems": [
    "Einsums.Props.C129_box_view",
    "Einsums.Props.C129_scalar_partial",
    "Einsums.Props.C129_set_all_partial",
    "Einsums.Props.C129_set_all_tensor",
    "Einsums.Props.C129_shape_refuted",
    "Einsums.Props.C129_tensor_partial",
    "Einsums.Props.C129_view_left_out",
    "Einsums.Props.C129_view_refuted",
    "Einsums.Props.C129_view_scalar"
   ],
   "note": "Device tensors: every operation under every interleaving; fill also for box-shaped views. Refuted: += and the like with a number on a view update elements several times (the first row of the 2x2 view of a 2x3 tensor twice) or, when the first stride is small, not at all, because strides[0]*dims[0] is used as the number of elements; tensors of another shape are not refused and are read out of bounds."
  },
  {
   "property": "C130",
   "status": "partial",
   "theorems": [
    "Einsums.Props.C130_assign_partial",
    "Einsums.Props.C130_host_partial",
    "Einsums.Props.C130_large_refuted",
    "Einsums.Props.C130_shape_refuted",
    "Einsums.Props.C130_to_view_partial",
    "Einsums.Props.C130_uninitialised_refuted",
    "Einsums.Props.C130_view_copy_partial",
    "Einsums.Props.C130_view_copy_refuted",
    "Einsums.Props.C130_view_partial"
   ],
   "note": "Same shapes (assignment of a device tensor: any shape) and fewer than 2^31 elements for host sources and view targets. Refuted: a default-constructed device tensor cannot be assigned to; assignment of a view of another shape is not refused; copying a view object reads dims[0]*strides[0] elements and can leave the tensor; host tensors of a multiple of 2^32 elements are silently not copied."
  },
  {
   "property": "C131",
   "status": "partial",
   "theorems": [
    "Einsums.Props.C131_map_partial",
    "Einsums.Props.C131_tensor",
    "Einsums.Props.C131_view_refuted"
   ],
   "note": "Every view whose elements all lie in the first size() places after its first element (every tensor, transposed views), fewer than 2^31 elements. Refuted for other views: the kernel uses the strides of the argument on the new dense tensor and writes outside it."
  },
  {
   "property": "C132",
   "status": "partial",
   "theorems": [
    "Einsums.Props.C132_garbage_refuted",
    "Einsums.Props.C132_ignored_refuted",
    "Einsums.Props.C132_max_partial",
    "Einsums.Props.C132_sum_partial",
    "Einsums.Props.C132_sum_refuted"
   ],
   "note": "At most 16 elements: right under every interleaving. Refuted: for 17 to 1023 elements some element never influences the result (a tensor of ones sums to less than its size), because the tree has one level too few; for 1024 and more the result contains the uninitialised shared memory of the first block."
  },
  {
   "property": "C133",
   "status": "partial",
   "theorems": [
    "Einsums.Props.C133_dot_partial",
    "Einsums.Props.C133_lost_refuted",
    "Einsums.Props.C133_refuted",
    "Einsums.Props.C133_shape_refuted",
    "Einsums.Props.C133_true_dot_partial",
    "Einsums.Props.C133_true_dot_stored",
    "Einsums.Props.C133_view_refuted"
   ],
   "note": "Every interleaving in which worker 0 clears the result before any other worker adds to it; true_dot for tensors. Refuted: for every other worker there is an interleaving that loses exactly its products, so that tensors of ones of any shape with two or more elements can give less than their size; true_dot ignores the strides of views; operands of different shapes are not refused and are read out of bounds."
  },
  {
   "property": "C134",
   "status": "partial",
   "theorems": [
    "Einsums.Props.C134_contract_partial",
    "Einsums.Props.C134_direct",
    "Einsums.Props.C134_order_exists",
    "Einsums.Props.C134_refuted",
    "Einsums.Props.C134_scalar"
   ],
   "note": "Element-wise products (same labels in C, A and B) and scalar results: every interleaving. Other contractions: every execution of the blocks in which no element of C is added to before it is initialised, fewer than 2^31 elements. Refuted: __syncthreads() is a barrier of one block, another block may add to an element before it is cleared; C(i) = sum_k A(i,k) B(i,k) of ones gives 1 instead of 2."
  },
  {
   "property": "C135",
   "status": "partial",
   "theorems": [
    "Einsums.Props.C135_beta_refuted",
    "Einsums.Props.C135_repeated",
    "Einsums.Props.C135_shape_refuted",
    "Einsums.Props.C135_sort_partial",
    "Einsums.Props.C135_view_refuted"
   ],
   "note": "beta = 0, row-major A (C any view), fewer than 2^31 elements: every interleaving. Refuted: every worker goes on to the end instead of advancing by the number of workers, so with beta = 1 an element can be added many times; a view A with gaps is read with its own strides as if it were dense and C is written out of bounds; targets of another shape are not refused."
  },
  {
   "property": "C136",
   "status": "partial",
   "theorems": [
    "Einsums.Props.C136_axpby_cells",
    "Einsums.Props.C136_axpby_partial",
    "Einsums.Props.C136_axpby_refuted",
    "Einsums.Props.C136_axpy_partial",
    "Einsums.Props.C136_axpy_refuted",
    "Einsums.Props.C136_product",
    "Einsums.Props.C136_product_shapes",
    "Einsums.Props.C136_scale_lines_partial",
    "Einsums.Props.C136_scale_partial",
    "Einsums.Props.C136_scale_refuted"
   ],
   "note": "direct_product: all layouts, fewer than 2^31 elements, every interleaving; in a build with assertions other shapes fail one. axpy, axpby, scale: row-major tensors and views (scale fewer than 2^31 elements). scale_row, scale_column: all matrices with non-zero strides. Refuted: axpby and scale on views with gaps change elements outside the view (scale also leaves out elements of it); axpy does not compare shapes."
  },
  {
   "property": "C137",
   "status": "partial",
   "theorems": [
    "Einsums.Props.C137_assert_refuted",
    "Einsums.Props.C137_cutoff_refuted",
    "Einsums.Props.C137_empty_refuted",
    "Einsums.Props.C137_overflow_refuted",
    "Einsums.Props.C137_pow_overflow_refuted",
    "Einsums.Props.C137_pow_partial",
    "Einsums.Props.C137_power_partial",
    "Einsums.Props.C137_syev_partial",
    "Einsums.Props.C137_symm_gemm_partial"
   ],
   "note": "Proved for all interleavings: symm_gemm = op(B)^T op(A) op(B) when n*n*p*p < 2^31 and asserts are off or B is square; syev; pow = x^alpha on eigenvectors and natural powers. Refuted: from 216x216 matrices on the number of terms overflows int (symm_gemm and pow, undefined behaviour); rectangular B fails an assert; pow ignores the cutoff; the empty matrix is rejected. pow of a complex tensor calls hyev, which does not exist (does not compile)."
  },
  {
   "property": "C138",
   "status": "partial",
   "theorems": [
    "Einsums.Props.C138_empty_refuted",
    "Einsums.Props.C138_gemm_partial",
    "Einsums.Props.C138_gemv_partial",
    "Einsums.Props.C138_ger_cells",
    "Einsums.Props.C138_ger_partial",
    "Einsums.Props.C138_ger_refuted",
    "Einsums.Props.C138_ger_view_refuted",
    "Einsums.Props.C138_gesv_nvidia_refuted",
    "Einsums.Props.C138_gesv_partial"
   ],
   "note": "Proved: gemm (also with an empty inner dimension, unlike the host), gemv, real ger for matrices without gaps in memory, gesv on AMD hardware as X A = B. Refuted: tensors without columns are rejected by gemm; ger conjugates y for complex elements; ger on a view with gaps writes outside its temporary; on NVIDIA hardware gesv reports success and leaves B unchanged."
  },
  {
   "property": "C139",
   "status": "partial",
   "theorems": [
    "Einsums.Props.C139_accepted",
    "Einsums.Props.C139_all_released_partial",
    "Einsums.Props.C139_leak_refuted",
    "Einsums.Props.C139_lifetime_refuted",
    "Einsums.Props.C139_mapped",
    "Einsums.Props.C139_no_abort",
    "Einsums.Props.C139_order_refuted",
    "Einsums.Props.C139_released_partial"
   ],
   "note": "Proved for all histories: no operation aborts; every byte of a live view is mapped where the view expects it; without failed allocations exactly the memory of live views stays registered, and none when no view is left; which creations are accepted. Refuted: when hipMalloc fails after the mapping was attached, the mapping is never released; the view does not keep the buffer alive; a whole buffer is refused when a part of it was mapped first, but not in the other order."
  },
  {
   "property": "C140",
   "status": "partial",
   "theorems": [
    "Einsums.Props.C140_contiguous_partial",
    "Einsums.Props.C140_copy_partial",
    "Einsums.Props.C140_fortran_refuted",
    "Einsums.Props.C140_gap_refuted",
    "Einsums.Props.C140_overrun_refuted",
    "Einsums.Props.C140_reversed_refuted",
    "Einsums.Props.C140_update_partial"
   ],
   "note": "Proved: what is copied (the first strides[0]*shape[0] bytes), both updates as the exact transfer of that range, and for C-contiguous buffers all elements and nothing else. Refuted: update_D2H overwrites the elements between the rows of a slice; slices of columns read and write past the end of the array; of a Fortran-ordered array only the first column is copied; reversed arrays are rejected and arrays of rank 0 are undefined behaviour."
  },
  {
   "property": "C141",
   "status": "partial",
   "theorems": [
    "Einsums.Props.C141_first_only",
    "Einsums.Props.C141_generic_partial",
    "Einsums.Props.C141_not_new_label",
    "Einsums.Props.C141_not_ordered",
    "Einsums.Props.C141_not_repeated",
    "Einsums.Props.C141_not_scalar",
    "Einsums.Props.C141_rank_mismatch",
    "Einsums.Props.C141_runs_exist"
   ],
   "note": "Distinct labels per tensor, each label of C in A or B, C with at least one label, executions in which no element is added to before it is initialised (any execution if all tensors have the same labels). Refuted: the barrier concerns one block only (ik,ik->i of ones gives 1); ii,i->i uses the first column of A for all matrices; a label only C has gets dimension 0 and nothing is added; for C without labels the kernel clears the scaled value, cp C is lost for all operands."
  },
  {
   "property": "C142",
   "status": "partial",
   "theorems": [
    "Einsums.Props.C142_direct",
    "Einsums.Props.C142_direct_rank",
    "Einsums.Props.C142_dot_lost",
    "Einsums.Props.C142_dot_partial",
    "Einsums.Props.C142_dot_rank",
    "Einsums.Props.C142_not_checked",
    "Einsums.Props.C142_runs_exist"
   ],
   "note": "Element-wise products: every interleaving and all strides. Dot products: executions in which the result is cleared first. Refuted: for all operands with fewer than 32 elements and every element but the first some execution loses its product; dimensions are not compared and B is read out of bounds; no labels at all reads an empty vector."
  },
  {
   "property": "C143",
   "status": "partial",
   "theorems": [
    "Einsums.Props.C143_gemm",
    "Einsums.Props.C143_gemm_partial",
    "Einsums.Props.C143_gemv",
    "Einsums.Props.C143_gemv_partial",
    "Einsums.Props.C143_not_complex",
    "Einsums.Props.C143_not_empty",
    "Einsums.Props.C143_not_more_targets",
    "Einsums.Props.C143_not_prefactor",
    "Einsums.Props.C143_outer",
    "Einsums.Props.C143_runs_exist"
   ],
   "note": "Outer products: every prefactor and interleaving, last block of labels not empty (better than the host, C81). gemv and gemm: the device computes ab C + ab A B whatever cp, hence right for cp = ab, under the conditions of C82 and C83 and without empty dimensions. Refuted: every element with cp C different from ab C is wrong; fewer summed than kept labels is undefined behaviour as on the host; complex128 with C and one operand transposed multiplies wrong elements; empty dimensions are rejected. Assumed: hipBLAS reads the prefactors from the device pointers it is given (the code never sets the pointer mode)."
  },
  {
   "property": "C144",
   "status": "partial",
   "theorems": [
    "Einsums.Props.C144_gemm_gap_refuted",
    "Einsums.Props.C144_gemm_overread_refuted",
    "Einsums.Props.C144_gemm_partial",
    "Einsums.Props.C144_gemm_transposed_refuted",
    "Einsums.Props.C144_gemm_wide_refuted",
    "Einsums.Props.C144_gemv_overread_refuted",
    "Einsums.Props.C144_gemv_partial",
    "Einsums.Props.C144_gemv_rect_refuted",
    "Einsums.Props.C144_not_row_major"
   ],
   "note": "gemm: square results, transposed operands square, allocations that contain whole columns, no gaps in C if beta = 0 and ldc = k. gemv: transposed or square A, n*inc elements available. Refuted for all contents: C wider than high, A transposed with k < m, B transposed with n < k, gemv of a rectangular matrix that is not transposed (undefined behaviour: device memory too small); taller C, and submatrices whose last column does not end inside the allocation (host memory read or written beyond the allocation); beta = 0 and ldc = k > m overwrites the elements between the columns with junk; the matrices are column-major, unlike those of the CPU backend. Assumed: hipBLAS reads the scalars from the device pointers it is given."
  },
  {
   "property": "C145",
   "status": "partial",
   "theorems": [
    "Einsums.Props.C145_axpy_partial",
    "Einsums.Props.C145_axpy_refuted",
    "Einsums.Props.C145_dot_complex_refuted",
    "Einsums.Props.C145_dot_partial",
    "Einsums.Props.C145_dot_refuted",
    "Einsums.Props.C145_ger_complex_refuted",
    "Einsums.Props.C145_ger_partial",
    "Einsums.Props.C145_ger_refuted",
    "Einsums.Props.C145_scal_partial",
    "Einsums.Props.C145_scal_refuted"
   ],
   "note": "Vectors with n*inc elements available, A not wider than high in an allocation of m columns. Refuted: vectors that end with their last element (undefined behaviour, for all contents), A wider than high, taller A at the end of an allocation; the complex dot and ger conjugate, unlike those of the CPU backend."
  },
  {
   "property": "C146",
   "status": "partial",
   "theorems": [
    "Einsums.Props.C146_gesv_few_refuted",
    "Einsums.Props.C146_gesv_many_refuted",
    "Einsums.Props.C146_gesv_partial",
    "Einsums.Props.C146_overread_refuted",
    "Einsums.Props.C146_syev_partial"
   ],
   "note": "syev: n columns of A to their ends inside the allocation. gesv: at most as many right-hand sides as unknowns, n columns available in B. Refuted for all contents: more right-hand sides (device memory too small), fewer at the end of an allocation. uplo = U; the returned info of syev and the pivots are not modelled."
  },
  {
   "property": "C147",
   "status": "partial",
   "theorems": [
    "Einsums.Props.C147_exception_refuted",
    "Einsums.Props.C147_getrf_again_refuted",
    "Einsums.Props.C147_getrf_refuted",
    "Einsums.Props.C147_history",
    "Einsums.Props.C147_release_partial",
    "Einsums.Props.C147_solver_exception_refuted",
    "Einsums.Props.C147_syev_refuted"
   ],
   "note": "Proved: normal return of the BLAS functions and gesv releases everything; over every history exactly two device blocks per call of syev or heev remain. Refuted: syev and heev never free; every failure point but the first leaks device memory or the integer of the solvers; getrf never returns normally (registers the address of a variable, unregisters the address in it) and its next call from the same stack position fails too."
  },
  {
   "property": "C148",
   "status": "partial",
   "theorems": [
    "Einsums.Props.C148_empty_refuted",
    "Einsums.Props.C148_heev_partial",
    "Einsums.Props.C148_lower",
    "Einsums.Props.C148_real_partial",
    "Einsums.Props.C148_refuted",
    "Einsums.Props.C148_stride_refuted",
    "Einsums.Props.C148_triangle_refuted",
    "Einsums.Props.C148_values_partial"
   ],
   "note": "Eigenvalues, orthonormality and frames for every Hermitian matrix with n > 0; the conjugates of the rows of A are eigenvectors. Refuted: for every Hermitian matrix that is not real some row is not an eigenvector; the lower triangle is used although 'u' is passed; the stride of W is ignored; n = 0 is rejected by LAPACK. The block version of heev is not modelled."
  },
  {
   "property": "C149",
   "status": "partial",
   "theorems": [
    "Einsums.Props.C149_race_refuted",
    "Einsums.Props.C149_repeat_refuted",
    "Einsums.Props.C149_tensor_partial"
   ],
   "note": "One thread: shape, k-th element is the k-th number drawn, range. Refuted for every shape with elements: two or more threads race on every element and on the engine; two calls give the same numbers. Normalize = true is not modelled (not instantiated anywhere)."
  },
  {
   "property": "C150",
   "status": "partial",
   "theorems": [
    "Einsums.Props.C150_definite_partial",
    "Einsums.Props.C150_hang_refuted",
    "Einsums.Props.C150_mean_refuted",
    "Einsums.Props.C150_race_refuted",
    "Einsums.Props.C150_returns",
    "Einsums.Props.C150_semidefinite_partial",
    "Einsums.Props.C150_square"
   ],
   "note": "Whenever the call returns (n > 0, mean not zero, one thread): symmetric, definite or semidefinite with the sign of the mean, force_zeros eigenvectors of eigenvalue 0; it returns if the first matrix is regular and the normal distribution does not go on giving zeros. Refuted: never returns if the first matrix is singular; mean = 0 is undefined behaviour; data race with several threads."
  },
  {
   "property": "C151",
   "status": "proved",
   "theorems": [
    "Einsums.Props.C151_sum_square"
   ],
   "note": "xLASSQ is assumed to do what LAPACK documents, at the elements it is given."
  },
  {
   "property": "C152",
   "status": "proved",
   "theorems": [
    "Einsums.Props.C152_length",
    "Einsums.Props.C152_update_is_weighted_least_squares",
    "Einsums.Props.C152_weighted_parafac_monotone"
   ],
   "note": "Exact arithmetic over an ordered ring; xGESV is assumed to do what LAPACK documents and its info is a ghost flag (the code ignores it); the starting factors and the convergence test are arbitrary; the calls of weight_tensor run their iterations in one order each."
  },
  {
   "property": "C153",
   "status": "proved",
   "theorems": [
    "Einsums.Props.C153_ho_oi",
    "Einsums.Props.C153_ho_svd",
    "Einsums.Props.C153_ho_svd_error",
    "Einsums.Props.C153_one_mode_undefined",
    "Einsums.Props.C153_ranks_undefined"
   ],
   "note": "Exact arithmetic; xGESDD is assumed to do what LAPACK documents; the convergence test of tucker_ho_oi is arbitrary. Also shown, outside the range of the property: tucker_ho_oi of a tensor of one mode dereferences an uninitialised pointer; ranks above the dimensions and missing ranks are read past the end of an array instead of being reported."
  },
  {
   "property": "C154",
   "status": "partial",
   "theorems": [
    "Einsums.Props.C154_assign",
    "Einsums.Props.C154_assign_array",
    "Einsums.Props.C154_assign_array_short",
    "Einsums.Props.C154_assign_shared",
    "Einsums.Props.C154_overlap",
    "Einsums.Props.C154_overlap_order",
    "Einsums.Props.C154_short_source",
    "Einsums.Props.C154_short_view"
   ],
   "note": "Proved for sources with their own storage and at least the target's extents, in every order, and for views of the same storage in which no target element is a source element at another index; arrays. Refuted: overlapping views (for every vector, A(1..n) = A(0..n-1) in order fills it with its first element; the result depends on the order); the shapes are not compared (every shorter vector is read past its end, a shorter view yields elements outside it); a shorter array is read past its end."
  },
  {
   "property": "C155",
   "status": "partial",
   "theorems": [
    "Einsums.Props.C155_initialize_cp_partial",
    "Einsums.Props.C155_parafac_partial",
    "Einsums.Props.C155_race_refuted",
    "Einsums.Props.C155_weighted_parafac_partial"
   ],
   "note": "Exact arithmetic over a ring with an order; xSYEV (at the Gram matrices of the unfoldings) and xGESV are assumed to do what LAPACK documents; the square root and the test for tiny numbers are arbitrary functions. Proved for one thread, and for any number when the rank is at most every dimension. Refuted: a rank larger than a dimension with two or more threads is a data race (C149), so the call never returns."
  },
  {
   "property": "C156",
   "status": "proved",
   "theorems": [
    "Einsums.Props.C156_direct",
    "Einsums.Props.C156_einsum",
    "Einsums.Props.C156_ends",
    "Einsums.Props.C156_serial"
   ],
   "note": "Proved for any loop that follows the lock protocol, and for einsum and direct_product under the conditions of C91 and C53 (what those results are otherwise is the subject of C91 and C53). The locks are needed: without the lock of the tile an update is lost (example). A and B are other objects than C. Sequentially consistent memory, as all accesses to shared tiles are under locks."
  },
  {
   "property": "C157",
   "status": "partial",
   "theorems": [
    "Einsums.Props.C157_copies_refuted",
    "Einsums.Props.C157_destroy",
    "Einsums.Props.C157_elements_partial",
    "Einsums.Props.C157_exclusive",
    "Einsums.Props.C157_lock",
    "Einsums.Props.C157_push_block_refuted",
    "Einsums.Props.C157_unlock"
   ],
   "note": "Proved for families of objects made by naming a tensor or a view, for every history. Refuted, for every history: a copy of a view (also to_rank_1_view of a rank-1 view), a view of a pointer and a view of a disk tensor have locks of their own, so any thread can lock them while another holds the tensor; push_block that reallocates while a block is held destroys a locked mutex. Sequentially consistent memory; std::recursive_mutex by its contract. Runtime tensors have no locks."
  },
  {
   "property": "C158",
   "status": "partial",
   "theorems": [
    "Einsums.Props.C158_codes",
    "Einsums.Props.C158_complex_refuted",
    "Einsums.Props.C158_long",
    "Einsums.Props.C158_op_partial",
    "Einsums.Props.C158_op_throws",
    "Einsums.Props.C158_records_refuted",
    "Einsums.Props.C158_rejects",
    "Einsums.Props.C158_rejects_complex",
    "Einsums.Props.C158_second_code",
    "Einsums.Props.C158_values_partial"
   ],
   "note": "Proved for the fourteen number codes with aligned items. Refuted: complex items for a real tensor are accepted and lose their imaginary parts; a format of two codes such as dd is read by its first letter, so a vector of records is read as the numbers that lie one after the other. The codes n, N and e are rejected although they are numbers."
  },
  {
   "property": "C159",
   "status": "partial",
   "theorems": [
    "Einsums.Props.C159_complex_nan_refuted",
    "Einsums.Props.C159_detects_partial",
    "Einsums.Props.C159_nan_complex_refuted",
    "Einsums.Props.C159_nan_throws",
    "Einsums.Props.C159_no_false_alarm",
    "Einsums.Props.C159_reports",
    "Einsums.Props.C159_same_algorithm_refuted",
    "Einsums.Props.C159_scalar_nan_refuted",
    "Einsums.Props.C159_scalar_refuted",
    "Einsums.Props.C159_silent",
    "Einsums.Props.C159_sticky_refuted"
   ],
   "note": "isnan and the distance are arbitrary functions. Proved: what is reported and when the program aborts; when the generic algorithm computes the reference, silence means that every element agrees with the sum, for every result of the algorithm under test; no false alarm for the calls of C15; the exceptions of the test for NaN. Refuted: after the first wrong element all later ones are reported; complex results that are not numbers are not reported; results without indices are compared with the same computation, so nothing is ever reported of them; likewise outer and element-wise products, so the wrong results of C16 and C21 pass. Host tensors, without Catch2."
  },
  {
   "property": "C160",
   "status": "partial",
   "theorems": [
    "Einsums.Props.C160_negative_width_refuted",
    "Einsums.Props.C160_print",
    "Einsums.Props.C160_zero_width_refuted"
   ],
   "note": "Proved for positive widths, byte by byte, given the texts of single numbers (fmt) and the tests for large and small numbers as functions; names and numbers without newlines; columns fit in an int. Refuted: width 0 divides by zero for every tensor of rank two or more with elements; with a negative width lines are never broken."
  },
  {
   "property": "C161",
   "status": "partial",
   "theorems": [
    "Einsums.Props.C161_block",
    "Einsums.Props.C161_file_options_refuted",
    "Einsums.Props.C161_tiled_partial"
   ],
   "note": "Proved byte by byte for block tensors, and for tiled tensors written by println and to streams (given C160's contracts for numbers; texts without newlines and NULs). Refuted: fprintln(FILE *, A, options) of a tiled tensor ignores the options (line 1267 is `fprintln(fp, A.tile(tile_index)), options;`), so that for every tensor with a tile full_output = false prints the elements."
  },
  {
   "property": "C162",
   "status": "partial",
   "theorems": [
    "Einsums.Props.C162_axis_refuted",
    "Einsums.Props.C162_block_outside",
    "Einsums.Props.C162_block_partial",
    "Einsums.Props.C162_block_range_refuted",
    "Einsums.Props.C162_block_throws",
    "Einsums.Props.C162_create",
    "Einsums.Props.C162_end_refuted",
    "Einsums.Props.C162_history_partial",
    "Einsums.Props.C162_large_refuted",
    "Einsums.Props.C162_read_partial",
    "Einsums.Props.C162_throws"
   ],
   "note": "Proved for every program with indices in range on tensors of fewer than 2^31 elements with commutative addition; copies between memories are assumed to succeed and to be complete when the call returns. Refuted: the index one past the end of the first axis passes the range check (`ordinal > size()`) and the access leaves the allocation; only the position in the storage is checked, so an index past the end of a later axis addresses the next row; size() is computed in 32 bits, so in a tensor of 2^32 elements every index but the origin throws. Block device tensors: writing outside the blocks is undefined behaviour (it is ignored on the host), and an index out of range after the first one reads as zero instead of throwing."
  },
  {
   "property": "C163",
   "status": "partial",
   "theorems": [
    "Einsums.Props.C163_assign_core_partial",
    "Einsums.Props.C163_assign_partial",
    "Einsums.Props.C163_copied_view_refuted",
    "Einsums.Props.C163_copy_partial",
    "Einsums.Props.C163_empty_refuted",
    "Einsums.Props.C163_mapped_twice_refuted",
    "Einsums.Props.C163_moved_refuted",
    "Einsums.Props.C163_rejected_refuted",
    "Einsums.Props.C163_released_partial",
    "Einsums.Props.C163_reshape_refuted",
    "Einsums.Props.C163_resize_partial",
    "Einsums.Props.C163_shapes_partial",
    "Einsums.Props.C163_shapes_refuted"
   ],
   "note": "Proved for programs without reshaping, copies of views, empty tensors that are mapped or pinned, assignment of uninitialised tensors and memory in core mapped by two views at once; contracts of HIP are assumed and allocations succeed. Refuted: every accepted reshape loses the memory of the dimensions of the source, and a rejected one also loses its elements (the source keeps its dimensions but has no data); assigning to the source of a reshape throws for mapped tensors, and assigning a tensor in core to it writes through a null pointer for mapped and pinned ones; every copy of a device view loses the memory it allocates; a mapped tensor with an empty dimension cannot be created (and the attempt loses memory), and resizing to one makes the destructor end the program; mapping memory twice throws and loses memory; a resize that keeps the number of elements leaves the old shape to the kernels. The copy constructor ignores its mode argument."
  },
  {
   "property": "C164",
   "status": "partial",
   "theorems": [
    "Einsums.Props.C164_default_refuted",
    "Einsums.Props.C164_python_refuted",
    "Einsums.Props.C164_twice_refuted",
    "Einsums.Props.C164_unopenable_refuted",
    "Einsums.Props.C164_use_partial",
    "Einsums.Props.C164_uses_partial",
    "Einsums.Props.C164_waits_refuted"
   ],
   "note": "Proved for finalize(true) and finalize with a file that can be opened, timers not nested too deep for the report (C62) and, in debug builds, none left running. Refuted: finalize(), which is finalize(false), does nothing at all: no report, and with a GPU every use of the library leaves another memory pool; finalising twice throws (GPU) or dereferences null; finalize(char const*) with a file that cannot be opened writes through a null pointer, finalize(std::string) loses the report silently; in Python set_finalize_arg, documented as selecting the report, assigns to a local variable, so there is never a report and the library is never shut down; the flags of stream_wait are not resized when the library is initialised again for more threads, and waiting throws on the new ones."
  },
  {
   "property": "C165",
   "status": "partial",
   "theorems": [
    "Einsums.Props.C165_defined",
    "Einsums.Props.C165_memory",
    "Einsums.Props.C165_moved_from_refuted",
    "Einsums.Props.C165_reshape_partial",
    "Einsums.Props.C165_reshape_refuted",
    "Einsums.Props.C165_resize_refuted",
    "Einsums.Props.C165_tensors",
    "Einsums.Props.C165_view_elements_partial",
    "Einsums.Props.C165_view_partial",
    "Einsums.Props.C165_write",
    "Einsums.Props.C165_write_tensor"
   ],
   "note": "Memory: proved for all programs. Elements: proved for programs without reshaping. Views: proved as long as the tensor is not destroyed, reshaped or given other dimensions. Refuted: resizing (or assigning a larger tensor) beyond the capacity frees the memory that the views point into; the reshaping constructor moves the elements before it checks anything, so when it throws the original has lost them and its views dangle; the original of an accepted reshape keeps its dimensions without elements: resizing it to them does nothing and assigning a tensor of that shape to it writes outside its memory."
  },
  {
   "property": "C166",
   "status": "partial",
   "theorems": [
    "Einsums.Props.C166_scalar_refuted",
    "Einsums.Props.C166_tensor_partial",
    "Einsums.Props.C166_view_partial",
    "Einsums.Props.C166_zero_width_refuted"
   ],
   "note": "Proved for positive widths and all ranks but 0. Refuted: a runtime tensor or view of rank 0 cannot be printed with its element, because the function asks for A(0) and the subscript throws that there are too many indices; width 0 divides by zero. The label has one space more than that of a tensor with a static rank."
  },
  {
   "property": "C167",
   "status": "partial",
   "theorems": [
    "Einsums.Props.C167_all",
    "Einsums.Props.C167_ends",
    "Einsums.Props.C167_fewer_refuted",
    "Einsums.Props.C167_flags_refuted",
    "Einsums.Props.C167_lock_refuted",
    "Einsums.Props.C167_set_busy_refuted",
    "Einsums.Props.C167_set_other_refuted",
    "Einsums.Props.C167_skip_partial",
    "Einsums.Props.C167_wait_partial"
   ],
   "note": "Proved for threads that set only their own stream, when their work is done, and that do not update their flags at the same time; that waits end, and all_stream_wait() with at most as many threads as at the initialisation, without such conditions. Refuted: set_stream(stream, thread_id) changes the stream of thread_id but the BLAS and solver handles of the calling thread, whose waits then miss its own library calls; a stream set while work is queued; the flags of the threads are bits of the same words, so an update can bring back a flag that another thread has cleared and its next wait is skipped; all_stream_wait() with more threads than at the initialisation, or a failing hipEventRecord, throws with the mutex locked and all threads block for ever; with fewer threads it misses streams."
  },
  {
   "property": "C168",
   "status": "partial",
   "theorems": [
    "Einsums.Props.C168_attribute_refuted",
    "Einsums.Props.C168_declared_partial",
    "Einsums.Props.C168_function_refuted",
    "Einsums.Props.C168_message",
    "Einsums.Props.C168_python_partial",
    "Einsums.Props.C168_returns",
    "Einsums.Props.C168_solver_text",
    "Einsums.Props.C168_unlisted_partial",
    "Einsums.Props.C168_unlisted_refuted"
   ],
   "note": "Proved for every status with a declared exception type, in C++ and in Python; that a call returns exactly on success and what the text names, without conditions. Refuted: a status without a declared type (a newer ROCm, a zero pivot of hipSOLVER) is thrown as the type for unknown statuses, which does not compare equal to the status; the text of hipBLAS errors has the call after `In function: ` and the function in front of the description; the Python classes ErrorMemoryAllocation, ErrorInitializationError, ErrorMapBufferObjectFailed and ErrorInvalidResourceHandle do not exist, because their types are registered before under another name."
  },
  {
   "property": "C169",
   "status": "partial",
   "theorems": [
    "Einsums.Props.C169_inside",
    "Einsums.Props.C169_levels_partial",
    "Einsums.Props.C169_levels_refuted",
    "Einsums.Props.C169_nested",
    "Einsums.Props.C169_order_partial",
    "Einsums.Props.C169_order_refuted",
    "Einsums.Props.C169_restores",
    "Einsums.Props.C169_set_refuted"
   ],
   "note": "Proved for threads, in all programs, with exceptions; for levels when nesting is off or all supported levels are allowed before. Refuted: omp_set_nested(old) restores only whether there is nesting, so a limit of, say, two levels becomes the greatest supported number after a scope; what the program sets inside a scope is lost; scopes that are destroyed in the order they were made leave one thread for ever. OpenMP's settings are a contract (OpenMP 5.0)."
  },
  {
   "property": "C170",
   "status": "partial",
   "theorems": [
    "Einsums.Props.C170_copy_partial",
    "Einsums.Props.C170_copy_refuted",
    "Einsums.Props.C170_detached_refuted",
    "Einsums.Props.C170_flat",
    "Einsums.Props.C170_ranges",
    "Einsums.Props.C170_rank1_refuted",
    "Einsums.Props.C170_sub_partial",
    "Einsums.Props.C170_sub_refuted",
    "Einsums.Props.C170_view_flat_partial",
    "Einsums.Props.C170_view_flat_refuted"
   ],
   "note": "Proved after every program of element assignments: boxes, sub-tensors with the Ranges before the integers, to_rank_1_view of tensors and of views of whole rows; copies of boxes that end before the last row or begin at the start of a row have the values. Refuted: an integer before a Range puts the offset on the wrong axis; copying a view copies its elements into memory of its own, so the copy (and to_rank_1_view of a view of one dimension) no longer follows the tensor; copying any other box, such as a column other than the first, reads past the allocation; to_rank_1_view of some of the columns has elements of the other columns too. Tensors of fewer than 2^31 elements, addition commutative (C162). HIP calls are contracts and succeed; who frees the memory is not modelled here."
  },
  {
   "property": "C171",
   "status": "partial",
   "theorems": [
    "Einsums.Props.C171_copy_refuted",
    "Einsums.Props.C171_history_partial",
    "Einsums.Props.C171_names_partial",
    "Einsums.Props.C171_names_refuted",
    "Einsums.Props.C171_released_partial",
    "Einsums.Props.C171_unknown"
   ],
   "note": "Proved for all programs whose copies name a mode, with the memory. Refuted: the plain copy x(y) has the default mode UNKNOWN, which copies the mode but allocates nothing, so every use of the copy is a null pointer; the conversion to a host tensor moves the name out of the device tensor; copies do not have the name of the original. HIP calls are contracts: with valid pointers they succeed, with the null pointer copies are refused and releases do nothing."
  },
  {
   "property": "C172",
   "status": "partial",
   "theorems": [
    "Einsums.Props.C172_dispatch_partial",
    "Einsums.Props.C172_distinct",
    "Einsums.Props.C172_gees_refuted",
    "Einsums.Props.C172_trsyl_refuted"
   ],
   "note": "Proved for all operations, types, backends and arguments except three. Refuted: gees<float> calls detail::sgees, which is declared and never defined, so no program that uses it links; trsyl for complex matrices always throws, because its two other branches depend on macros nothing defines. The types of arguments are not modelled (the compiler checks them)."
  },
  {
   "property": "C173",
   "status": "partial",
   "theorems": [
    "Einsums.Props.C173_cast_partial",
    "Einsums.Props.C173_cast_refuted",
    "Einsums.Props.C173_real",
    "Einsums.Props.C173_roundtrip",
    "Einsums.Props.C173_widen_partial"
   ],
   "note": "Proved for all pairs of types but one. Refuted: HipCast<hipDoubleComplex, hipComplex> puts the real part in both places, so the imaginary part is wrong for every number whose parts differ. The compiler's conversions between float and double are function arguments that keep zero."
  },
  {
   "property": "C174",
   "status": "partial",
   "theorems": [
    "Einsums.Props.C174_auto_partial",
    "Einsums.Props.C174_auto_refused",
    "Einsums.Props.C174_auto_refuted",
    "Einsums.Props.C174_box_partial",
    "Einsums.Props.C174_get",
    "Einsums.Props.C174_ignored_refuted",
    "Einsums.Props.C174_order",
    "Einsums.Props.C174_refused",
    "Einsums.Props.C174_shape_partial",
    "Einsums.Props.C174_shape_refuted",
    "Einsums.Props.C174_strides"
   ],
   "note": "Proved: the search, independence of the order of options of different types, boxes, explicit strides, other shapes of contiguous parents, refusal. Refuted: an Offset with another number of entries than the parent has dimensions, and a Stride with another number than the view has, are ignored silently; a view of another rank of a view with gaps shows elements outside it; the dimension computed for -1 of a matrix counts the row offset as elements and reaches outside the storage. Products of dimensions are exact here, doubles in the code."
  },
  {
   "property": "C175",
   "status": "partial",
   "theorems": [
    "Einsums.Props.C175_elements_partial",
    "Einsums.Props.C175_mixed_refuted",
    "Einsums.Props.C175_single_refuted",
    "Einsums.Props.C175_types"
   ],
   "note": "Proved for functions that always return real or always complex numbers, none a NumPy scalar of single precision; unsupported data types are refused. Refuted: a function that returns np.float32 or np.complex64 makes every nonempty creation throw, even of a single-precision tensor (the scalar matches the buffer overload of __setitem__); a function whose first value is real and second complex makes creation of a real tensor throw. Rests on pybind11's two-pass choice of overloads and NumPy 2's result types, stated as contracts in the model."
  },
  {
   "property": "C176",
   "status": "proved",
   "theorems": [
    "Einsums.Props.C176_injective",
    "Einsums.Props.C176_spec",
    "Einsums.Props.C176_text"
   ],
   "note": "For the classic locale."
  },
  {
   "property": "C177",
   "status": "proved",
   "theorems": [
    "Einsums.Props.C177_ext",
    "Einsums.Props.C177_flags",
    "Einsums.Props.C177_set"
   ],
   "note": "For enumerations with a fixed underlying type, which every enum class has."
  },
  {
   "property": "C178",
   "status": "partial",
   "theorems": [
    "Einsums.Props.C178_assign_refuted",
    "Einsums.Props.C178_contents",
    "Einsums.Props.C178_insert_partial",
    "Einsums.Props.C178_insert_refuted",
    "Einsums.Props.C178_lookup",
    "Einsums.Props.C178_push",
    "Einsums.Props.C178_refused"
   ],
   "note": "Look-up, contents and pushes are proved. DISAGREEMENT: `Tensor::operator=` does not copy the name. So every insertion before the end of a vector with spare capacity leaves the names where they were (C178_insert_refuted): the new block's name is lost, and the name of the block at the position stands for the new one; and the copy assignment of block tensors does not copy the names of the blocks (C178_assign_refuted). The vector's insertion is libstdc++'s, as a documented contract."
  },
  {
   "property": "C179",
   "status": "partial",
   "theorems": [
    "Einsums.Props.C179_degree_zero",
    "Einsums.Props.C179_moments_partial",
    "Einsums.Props.C179_quadrature_partial",
    "Einsums.Props.C179_weight"
   ],
   "note": "Proved for 0 < n < 4096 in exact arithmetic: the nodes are exactly the roots of the Laguerre polynomial, ascending, the weights are positive, and the rule is exact against Mathlib's Lebesgue integral for every polynomial of degree below 2n (C179_quadrature_partial); degree 0 is refused (C179_degree_zero). Missing: n of 4096 and more, where the code's companion matrix is wrong (DISAGREEMENT, C70_companion_large_refuted), and rounding (the Newton step, an identity in exact arithmetic, is there for rounding). xSYEV is a function argument with its documented contract; `weight` is proved for tensors, not for views."
  },
  {
   "property": "C180",
   "status": "partial",
   "theorems": [
    "Einsums.Props.C180_array_partial",
    "Einsums.Props.C180_assign_back",
    "Einsums.Props.C180_large_refuted",
    "Einsums.Props.C180_round_trip_partial",
    "Einsums.Props.C180_uninitialised",
    "Einsums.Props.C180_vector_partial"
   ],
   "note": "Proved below 2^31 elements; the assignment of a device tensor to a host tensor is proved for all sizes (C180_assign_back). DISAGREEMENT: `size()` is computed in an `int`, so that from 2^31 elements on no host tensor becomes a device tensor of its shape (C180_large_refuted). HIP's copies are a documented contract."
  },
  {
   "property": "C181",
   "status": "partial",
   "theorems": [
    "Einsums.Props.C181_large_refuted",
    "Einsums.Props.C181_round_trip_partial",
    "Einsums.Props.C181_to_device_partial",
    "Einsums.Props.C181_to_host_partial"
   ],
   "note": "Proved for tiles, and for the conversion full shapes, of fewer than 2^31 elements. DISAGREEMENT: `size()` is computed in an `int`, so that a tile of 2^32 elements arrives as zeros (C181_large_refuted). The element-wise copy of the conversion is modelled as direct reads and writes; HIP's copies are a documented contract."
  }
 ]
}