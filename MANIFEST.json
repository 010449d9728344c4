{
 "claims": [
  {
   "property": "C01",
   "status": "proved",
   "theorems": [
    "Fern.C01_indexRanges_partition",
    "Fern.C01_indexRanges_visit_order"
   ],
   "note": ""
  },
  {
   "property": "C02",
   "status": "proved",
   "theorems": [
    "Fern.C02_doc_empty_false",
    "Fern.C02_indexRanges2_partition",
    "Fern.indexRanges2_exactCover"
   ],
   "note": "partition proved for every size; the documented result for empty sizes is refuted (C02_doc_empty_false)"
  },
  {
   "property": "C03",
   "status": "proved",
   "theorems": [
    "Fern.C03_count_large",
    "Fern.C03_count_le",
    "Fern.C03_count_small",
    "Fern.C03_count_t_or_one_more",
    "Fern.C03_doc_count_false"
   ],
   "note": "the documented number of ranges is refuted (C03_doc_count_false); exact bounds proved instead"
  },
  {
   "property": "C04",
   "status": "proved",
   "theorems": [
    "Fern.C04_binary_0d1d",
    "Fern.C04_binary_0d2d",
    "Fern.C04_binary_1d0d",
    "Fern.C04_binary_1d1d",
    "Fern.C04_binary_2d0d",
    "Fern.C04_binary_2d2d",
    "Fern.C04_disaggregate_1d",
    "Fern.C04_disaggregate_2d",
    "Fern.C04_nullary_1d",
    "Fern.C04_nullary_2d",
    "Fern.C04_unary_1d",
    "Fern.C04_unary_2d"
   ],
   "note": "for nullary, unary, binary and disaggregate operations; every interleaving of the element actions of the tasks"
  },
  {
   "property": "C05",
   "status": "proved",
   "theorems": [
    "Fern.C05_binary_2d2d",
    "Fern.C05_footprint_1d",
    "Fern.C05_footprint_2d",
    "Fern.C05_unary_1d"
   ],
   "note": ""
  },
  {
   "property": "C06",
   "status": "proved",
   "theorems": [
    "Fern.C06_at_most_once",
    "Fern.C06_once",
    "Fern.C06_order"
   ],
   "note": "Sequentially consistent interleavings of the statements of the workers, submitters and the destructor."
  },
  {
   "property": "C07",
   "status": "proved",
   "theorems": [
    "Fern.C07_after_destroy",
    "Fern.C07_dropped",
    "Fern.C07_enabled",
    "Fern.C07_exit",
    "Fern.C07_final",
    "Fern.C07_mutual_exclusion",
    "Fern.C07_no_more",
    "Fern.C07_progress",
    "Fern.C07_time_out_needed"
   ],
   "note": "C07_time_out_needed: without the 100 ms time-out a notification can be missed. Tasks still queued at destruction are dropped (C07_dropped)."
  },
  {
   "property": "C08",
   "status": "proved",
   "theorems": [
    "Fern.C08_contents",
    "Fern.C08_fails_only_if_empty",
    "Fern.C08_fifo",
    "Fern.C08_linearizable",
    "Fern.C08_mutual_exclusion",
    "Fern.C08_progress"
   ],
   "note": "Sequentially consistent interleavings of the statements of any number of threads."
  },
  {
   "property": "C09",
   "status": "proved",
   "theorems": [
    "Fern.C09_unary_0d",
    "Fern.C09_unary_1d",
    "Fern.C09_unary_1d_extents",
    "Fern.C09_unary_2d",
    "Fern.C09_unary_2d_extents",
    "Fern.C09_unary_extents_par"
   ],
   "note": ""
  },
  {
   "property": "C10",
   "status": "proved",
   "theorems": [
    "Fern.C10_binary_0d0d",
    "Fern.C10_binary_0d1d_converted",
    "Fern.C10_binary_0d1d_false",
    "Fern.C10_binary_0d1d_of_conv",
    "Fern.C10_binary_0d2d",
    "Fern.C10_binary_1d0d",
    "Fern.C10_binary_1d1d_converted",
    "Fern.C10_binary_1d1d_false",
    "Fern.C10_binary_1d1d_of_conv",
    "Fern.C10_binary_2d0d",
    "Fern.C10_binary_2d2d",
    "Fern.C10_extents_0d1d",
    "Fern.C10_extents_0d1d_false",
    "Fern.C10_extents_0d2d",
    "Fern.C10_extents_1d0d",
    "Fern.C10_extents_1d1d",
    "Fern.C10_extents_2d0d",
    "Fern.C10_extents_2d2d"
   ],
   "note": "0D/0D, 1D/0D, 2D/0D, 0D/2D, 2D/2D in full; for 0D/1D and 1D/1D the second value is converted to the first value type by the code: proved up to that conversion, refuted without"
  },
  {
   "property": "C11",
   "status": "proved",
   "theorems": [
    "Fern.C11_nullary_0d",
    "Fern.C11_nullary_1d",
    "Fern.C11_nullary_2d"
   ],
   "note": ""
  },
  {
   "property": "C12",
   "status": "proved",
   "theorems": [
    "Fern.C12_disaggregate_0d",
    "Fern.C12_disaggregate_1d",
    "Fern.C12_disaggregate_2d"
   ],
   "note": ""
  },
  {
   "property": "C13",
   "status": "proved",
   "theorems": [
    "Fern.C13_nAry_add",
    "Fern.C13_nAry_markValue_false",
    "Fern.C13_nAry_masked",
    "Fern.C13_nAry_noData_false",
    "Fern.C13_nAry_overflow_false",
    "Fern.C13_nAry_steps"
   ],
   "note": "no-data of v3.. is ignored by the code: refuted in general (C13_nAry_noData_false), proved under the condition that v3.. have no no-data beyond that of v1, v2. C13_nAry_steps and C13_nAry_masked assume that the range policy gives the same answer if it sees the intermediate result after the step; C13_nAry_add is the exact result for sums of integers without that assumption, C13_nAry_overflow_false the counterexample"
  },
  {
   "property": "C14",
   "status": "proved",
   "theorems": [
    "Fern.C14_cover_0d0d",
    "Fern.C14_cover_2d0d",
    "Fern.C14_cover_2d2d"
   ],
   "note": ""
  },
  {
   "property": "C15",
   "status": "proved",
   "theorems": [
    "Fern.C15_ifThen0d0d",
    "Fern.C15_ifThen0d2d",
    "Fern.C15_ifThen2d0d",
    "Fern.C15_ifThen2d2d",
    "Fern.C15_ifThenElse0d0d0d",
    "Fern.C15_ifThenElse0d0d2d",
    "Fern.C15_ifThenElse0d2d0d",
    "Fern.C15_ifThenElse0d2d2d",
    "Fern.C15_ifThenElse1d0d0dPar",
    "Fern.C15_ifThenElse1d0d0dSeq_asserts",
    "Fern.C15_ifThenElse1d0d1d",
    "Fern.C15_ifThenElse1d1d0d",
    "Fern.C15_ifThenElse1d1d1d",
    "Fern.C15_ifThenElse2d0d0d",
    "Fern.C15_ifThenElse2d0d2d",
    "Fern.C15_ifThenElse2d2d0d",
    "Fern.C15_ifThenElse2d2d2d",
    "Fern.C15_ifThenElse_unique"
   ],
   "note": "sequential if(1D, 0D, 0D) fails an assertion unless the array has one element (C15_ifThenElse1d0d0dSeq_asserts)"
  },
  {
   "property": "C16",
   "status": "proved",
   "theorems": [
    "Fern.C16_deMorgan",
    "Fern.C16_intersect_0d",
    "Fern.C16_intersect_2d",
    "Fern.C16_intersect_assoc",
    "Fern.C16_intersect_comm",
    "Fern.C16_intersect_idem",
    "Fern.C16_intersect_pattern",
    "Fern.C16_markMask",
    "Fern.C16_merge_0d",
    "Fern.C16_merge_2d",
    "Fern.C16_unite_0d",
    "Fern.C16_unite_2d",
    "Fern.C16_unite_assoc",
    "Fern.C16_unite_comm",
    "Fern.C16_unite_idem",
    "Fern.C16_unite_pattern"
   ],
   "note": ""
  },
  {
   "property": "C17",
   "status": "proved",
   "theorems": [
    "Fern.C17_and_1d1d_narrowed_false",
    "Fern.C17_and_2d2d",
    "Fern.C17_and_cell",
    "Fern.C17_defined_1d",
    "Fern.C17_defined_2d",
    "Fern.C17_defined_2d_parallel",
    "Fern.C17_nor",
    "Fern.C17_nor_2d2d",
    "Fern.C17_nor_cell",
    "Fern.C17_not_0d",
    "Fern.C17_not_1d",
    "Fern.C17_not_2d",
    "Fern.C17_not_and",
    "Fern.C17_not_cell",
    "Fern.C17_not_or",
    "Fern.C17_or_2d2d",
    "Fern.C17_or_cell",
    "Fern.C17_shape_0d0d",
    "Fern.C17_shape_0d1d",
    "Fern.C17_shape_0d2d",
    "Fern.C17_shape_1d0d",
    "Fern.C17_shape_1d1d",
    "Fern.C17_shape_2d0d",
    "Fern.C17_shape_2d2d",
    "Fern.C17_xnor",
    "Fern.C17_xnorBool_cell",
    "Fern.C17_xnor_2d2d",
    "Fern.C17_xnor_cell",
    "Fern.C17_xorBool_cell",
    "Fern.C17_xor_2d2d",
    "Fern.C17_xor_cell"
   ],
   "note": "for two 1D arrays of different value types the second value is narrowed first (C17_and_1d1d_narrowed_false), otherwise as stated"
  },
  {
   "property": "C18",
   "status": "proved",
   "theorems": [
    "Fern.C18_compress_1d",
    "Fern.C18_compress_2d"
   ],
   "note": ""
  },
  {
   "property": "C19",
   "status": "proved",
   "theorems": [
    "Fern.C19_compress_1d_parallel",
    "Fern.C19_compress_2d_parallel",
    "Fern.C19_move_keeps_others"
   ],
   "note": ""
  },
  {
   "property": "C20",
   "status": "proved",
   "theorems": [
    "Fern.C20_compress_decompress_1d",
    "Fern.C20_compress_decompress_2d",
    "Fern.C20_decompress_1d",
    "Fern.C20_decompress_2d",
    "Fern.C20_decompress_compress_1d",
    "Fern.C20_decompress_compress_2d"
   ],
   "note": ""
  },
  {
   "property": "C21",
   "status": "proved",
   "theorems": [
    "Fern.C21_offset_1d",
    "Fern.C21_offset_1d_beyond",
    "Fern.C21_offset_2d",
    "Fern.C21_offset_2d_beyond"
   ],
   "note": "For extents representable in the type of the offset; C23 is about the others."
  },
  {
   "property": "C22",
   "status": "proved",
   "theorems": [
    "Fern.C22_offset_1d_disjoint",
    "Fern.C22_offset_1d_parallel",
    "Fern.C22_offset_2d_disjoint",
    "Fern.C22_offset_2d_parallel"
   ],
   "note": "For extents representable in the type of the offset; C23 is about the others."
  },
  {
   "property": "C23",
   "status": "proved",
   "theorems": [
    "Fern.C21_offset_1d",
    "Fern.C21_offset_2d",
    "Fern.C22_offset_1d_parallel",
    "Fern.C22_offset_2d_parallel",
    "Fern.C23_extent_not_representable",
    "Fern.C23_int_counterexample"
   ],
   "note": "The positive part are C21 and C22; C23_extent_not_representable and C23_int_counterexample show that the condition is needed."
  },
  {
   "property": "C24",
   "status": "proved",
   "theorems": [
    "Fern.C24_copy",
    "Fern.C24_copy_parallel",
    "Fern.C24_copy_parallel_empty_false"
   ],
   "note": "The statement itself records that the parallel version needs a non-empty range; the refutation for an empty range is C24_copy_parallel_empty_false."
  },
  {
   "property": "C25",
   "status": "proved",
   "theorems": [
    "Fern.C25_bounds_order",
    "Fern.C25_bounds_required_0d",
    "Fern.C25_bounds_required_1d0d1d",
    "Fern.C25_bounds_required_1d1d0d",
    "Fern.C25_bounds_required_1d1d1d",
    "Fern.C25_bounds_required_2d0d2d",
    "Fern.C25_bounds_required_2d2d0d",
    "Fern.C25_bounds_required_2d2d2d",
    "Fern.C25_clamp_0d",
    "Fern.C25_clamp_1d0d1d",
    "Fern.C25_clamp_1d1d0d",
    "Fern.C25_clamp_1d1d1d",
    "Fern.C25_clamp_2d0d2d",
    "Fern.C25_clamp_2d2d0d",
    "Fern.C25_clamp_2d2d2d",
    "Fern.C25_idempotent",
    "Fern.C25_idempotent_1d",
    "Fern.C25_idempotent_2d",
    "Fern.C25_unique",
    "Fern.C25_value"
   ],
   "note": ""
  },
  {
   "property": "C26",
   "status": "proved",
   "theorems": [
    "Fern.C26_add_unsigned",
    "Fern.C26_add_unsigned_arrays"
   ],
   "note": "Integer value types. C26_add_unsigned_arrays is the statement about whole arrays."
  },
  {
   "property": "C27",
   "status": "proved",
   "theorems": [
    "Fern.C27_add_signed_narrow",
    "Fern.C27_add_signed_wide"
   ],
   "note": ""
  },
  {
   "property": "C28",
   "status": "proved",
   "theorems": [
    "Fern.C28_add_mixed",
    "Fern.C28_add_mixed_false"
   ],
   "note": "The claim that the check is exact is refuted (C28_add_mixed_false); C28_add_mixed characterises it."
  },
  {
   "property": "C29",
   "status": "proved",
   "theorems": [
    "Fern.C29_subtract_mixed",
    "Fern.C29_subtract_mixed_uint64_false",
    "Fern.C29_subtract_signed_narrow",
    "Fern.C29_subtract_signed_wide",
    "Fern.C29_subtract_unsigned"
   ],
   "note": ""
  },
  {
   "property": "C30",
   "status": "proved",
   "theorems": [
    "Fern.C30_multiply_false",
    "Fern.C30_multiply_mixed",
    "Fern.C30_multiply_signed",
    "Fern.C30_multiply_unsigned"
   ],
   "note": ""
  },
  {
   "property": "C31",
   "status": "proved",
   "theorems": [
    "Fern.C31_divide",
    "Fern.C31_divide_by_zero",
    "Fern.C31_divide_false",
    "Fern.C31_divide_unsigned_arrays"
   ],
   "note": "The exceptions in the statement are shown by C31_divide and C31_divide_false."
  },
  {
   "property": "C32",
   "status": "proved",
   "theorems": [
    "Fern.C32_absolute",
    "Fern.C32_absolute_unsigned"
   ],
   "note": ""
  },
  {
   "property": "C33",
   "status": "proved",
   "theorems": [
    "Fern.C33_compare",
    "Fern.C33_compare_all",
    "Fern.C33_compare_mixed",
    "Fern.C33_compare_mixed_false",
    "Fern.C33_consistent"
   ],
   "note": "The claim for mixed signedness is refuted (C33_compare_mixed_false) and characterised (C33_compare_mixed)."
  },
  {
   "property": "C34",
   "status": "proved",
   "theorems": [
    "Fern.C34_defined",
    "Fern.C34_represents",
    "Fern.C34_symmetric"
   ],
   "note": ""
  },
  {
   "property": "C35",
   "status": "proved",
   "theorems": [
    "Fern.C35_sum_0d",
    "Fern.C35_sum_1d",
    "Fern.C35_sum_2d",
    "Fern.C35_sum_discard_1d",
    "Fern.C35_sum_discard_2d",
    "Fern.C35_sum_signed_wide_1d",
    "Fern.C35_sum_signed_wide_2d",
    "Fern.C35_sum_unsigned",
    "Fern.C35_sum_unsigned_2d"
   ],
   "note": "Integer value types. For int32 and int64 the overflowing addition is undefined behaviour before the policy is asked: proved for sums whose partial sums fit (C35_sum_signed_wide_*)."
  },
  {
   "property": "C36",
   "status": "proved",
   "theorems": [
    "Fern.C36_parallel_1d",
    "Fern.C36_parallel_2d",
    "Fern.C36_sum_discard",
    "Fern.C36_sum_signed_false",
    "Fern.C36_sum_unsigned_1d",
    "Fern.C36_sum_unsigned_2d"
   ],
   "note": "The difference with range detection is C36_sum_signed_false."
  },
  {
   "property": "C37",
   "status": "proved",
   "theorems": [
    "Fern.C37_0d",
    "Fern.C37_count_1d",
    "Fern.C37_count_2d",
    "Fern.C37_count_2d_false",
    "Fern.C37_count_2d_first_row",
    "Fern.C37_count_par_1d",
    "Fern.C37_count_par_1d_blocks",
    "Fern.C37_count_par_1d_false",
    "Fern.C37_count_par_1d_no_no_data",
    "Fern.C37_count_par_2d",
    "Fern.C37_count_par_2d_bands",
    "Fern.C37_float_1d",
    "Fern.C37_float_2d",
    "Fern.C37_float_par"
   ],
   "note": "The exceptions in the statement are C37_count_2d_first_row, C37_count_2d_false and C37_count_par_1d_false."
  },
  {
   "property": "C38",
   "status": "proved",
   "theorems": [
    "Fern.C38_count",
    "Fern.C38_count_policy_false",
    "Fern.C38_count_policy_ignores_other",
    "Fern.C38_count_wide",
    "Fern.C38_max",
    "Fern.C38_mean",
    "Fern.C38_mean_wide",
    "Fern.C38_median",
    "Fern.C38_min",
    "Fern.C38_mode",
    "Fern.C38_mode_default_false",
    "Fern.C38_range",
    "Fern.C38_sum",
    "Fern.C38_sum_wide"
   ],
   "note": "The exceptions in the statement are C38_count_policy_false and C38_mode_default_false. Integer value types; for int32 and int64 sums provided that the partial sums fit."
  },
  {
   "property": "C39",
   "status": "proved",
   "theorems": [
    "Fern.C39_max",
    "Fern.C39_median_even",
    "Fern.C39_median_false",
    "Fern.C39_median_odd",
    "Fern.C39_min",
    "Fern.C39_mode",
    "Fern.C39_mode_default_false",
    "Fern.C39_order",
    "Fern.C39_range",
    "Fern.C39_range_false"
   ],
   "note": "Integer value types. Range and even median need their difference/sum to be representable (C39_range_false, C39_median_false); mode needs an accumulator constructed with a value (C39_mode_default_false)."
  },
  {
   "property": "C40",
   "status": "proved",
   "theorems": [
    "Fern.C40_antisymmetric",
    "Fern.C40_empty",
    "Fern.C40_monotone",
    "Fern.C40_operators",
    "Fern.C40_subset",
    "Fern.C40_transitive"
   ],
   "note": ""
  },
  {
   "property": "C41",
   "status": "proved",
   "theorems": [
    "Fern.C41_aliases",
    "Fern.C41_data_types",
    "Fern.C41_printed",
    "Fern.C41_printed_injective",
    "Fern.C41_round_trip",
    "Fern.C41_single"
   ],
   "note": ""
  },
  {
   "property": "C42",
   "status": "proved",
   "theorems": [
    "Fern.C42_alternatives",
    "Fern.C42_antisymmetric",
    "Fern.C42_fixed",
    "Fern.C42_index",
    "Fern.C42_reflexive",
    "Fern.C42_satisfied",
    "Fern.C42_transitive"
   ],
   "note": ""
  },
  {
   "property": "C43",
   "status": "proved",
   "theorems": [
    "Fern.C43_argument_type",
    "Fern.C43_data_supported",
    "Fern.C43_data_type",
    "Fern.C43_dominating",
    "Fern.C43_fixed_result",
    "Fern.C43_int16",
    "Fern.C43_int16_witness",
    "Fern.C43_one_type",
    "Fern.C43_standard",
    "Fern.C43_unary_unchecked"
   ],
   "note": "The exception in the statement is C43_int16 and C43_int16_witness. Argument types that are fixed and supported by the parameters; unary operations pass on any type unchecked (C43_unary_unchecked)."
  },
  {
   "property": "C44",
   "status": "proved",
   "theorems": [
    "Fern.C44_has_value",
    "Fern.C44_possible",
    "Fern.C44_size",
    "Fern.C44_value"
   ],
   "note": ""
  },
  {
   "property": "C45",
   "status": "proved",
   "theorems": [
    "Fern.C45_empty",
    "Fern.C45_has_value",
    "Fern.C45_level",
    "Fern.C45_level_of",
    "Fern.C45_restore",
    "Fern.C45_value"
   ],
   "note": ""
  },
  {
   "property": "C46",
   "status": "proved",
   "theorems": [
    "Fern.C46_canonical",
    "Fern.C46_colon_in_path",
    "Fern.C46_data_name",
    "Fern.C46_idempotent",
    "Fern.C46_names",
    "Fern.C46_rejected",
    "Fern.C46_root"
   ],
   "note": ""
  },
  {
   "property": "C47",
   "status": "proved",
   "theorems": [
    "Fern.C47_join_split",
    "Fern.C47_special",
    "Fern.C47_split",
    "Fern.C47_split_join_split",
    "Fern.C47_tokens"
   ],
   "note": "Separators without a meaning of their own in a bracket expression (C47_special)."
  },
  {
   "property": "C48",
   "status": "proved",
   "theorems": [
    "Fern.C48_no_characters",
    "Fern.C48_strip",
    "Fern.C48_strip_begin",
    "Fern.C48_strip_end",
    "Fern.C48_strip_eq",
    "Fern.C48_strip_idempotent",
    "Fern.C48_strip_order"
   ],
   "note": ""
  },
  {
   "property": "C49",
   "status": "proved",
   "theorems": [
    "Fern.C49_bijection",
    "Fern.C49_consecutive",
    "Fern.C49_loop",
    "Fern.C49_loop_cells",
    "Fern.C49_size_t"
   ],
   "note": ""
  },
  {
   "property": "C50",
   "status": "proved",
   "theorems": [
    "Fern.C50_constructed",
    "Fern.C50_has_masked_values",
    "Fern.C50_round_trip",
    "Fern.C50_round_trip_self",
    "Fern.C50_set_mask",
    "Fern.C50_set_mask_sizes",
    "Fern.C50_set_mask_value",
    "Fern.C50_write_mask"
   ],
   "note": ""
  },
  {
   "property": "C51",
   "status": "proved",
   "theorems": [
    "Fern.C51_detect_0d2d",
    "Fern.C51_detect_1d",
    "Fern.C51_detect_1d1d",
    "Fern.C51_detect_2d",
    "Fern.C51_detect_2d0d",
    "Fern.C51_detect_2d2d",
    "Fern.C51_exact",
    "Fern.C51_exact_2d",
    "Fern.C51_extreme",
    "Fern.C51_float",
    "Fern.C51_representable"
   ],
   "note": "Values are rational numbers; what happens if the reserved value is NaN, and sequences of operations, are in C98. For unary and binary local operations; the others mark with the same policy (C11 - C13)."
  },
  {
   "property": "C52",
   "status": "proved",
   "theorems": [
    "Fern.C52_parallel",
    "Fern.C52_sequential",
    "Fern.C52_small",
    "Fern.C52_small_parallel"
   ],
   "note": "Accesses outside of the image, the mask or the kernel are failures in the model, so the theorems show that there are none."
  },
  {
   "property": "C53",
   "status": "proved",
   "theorems": [
    "Fern.C53_boolean_alternative_differs",
    "Fern.C53_mean",
    "Fern.C53_policies",
    "Fern.C53_policies_boolean",
    "Fern.C53_skip",
    "Fern.C53_skip_boolean",
    "Fern.C53_weighted_mean"
   ],
   "note": "General in the element types, the sum, the normalisation and the policies; C53_weighted_mean and C53_mean are instances in exact arithmetic. C53_boolean_alternative_differs shows where the boolean kernel departs from the rule if no-data cells are replaced."
  },
  {
   "property": "C54",
   "status": "proved",
   "theorems": [
    "Fern.C54_calls",
    "Fern.C54_move_twice",
    "Fern.C54_moved",
    "Fern.C54_once"
   ],
   "note": ""
  },
  {
   "property": "C55",
   "status": "proved",
   "theorems": [
    "Fern.C55_contents",
    "Fern.C55_push_pop",
    "Fern.C55_size",
    "Fern.C55_top"
   ],
   "note": "The model of top has no new stack as its result: reading leaves the stack as it is."
  },
  {
   "property": "C56",
   "status": "proved",
   "theorems": [
    "Fern.C56_define",
    "Fern.C56_definitions",
    "Fern.C56_exists",
    "Fern.C56_not_self",
    "Fern.C56_succeeds",
    "Fern.C56_unique",
    "Fern.C56_uses"
   ],
   "note": "The model is the visitor; every use is linked to the definition that the block structure prescribes. Function bodies are not blocks of their own for this visitor and function parameters count as uses."
  },
  {
   "property": "C57",
   "status": "proved",
   "theorems": [
    "Fern.C57_arguments",
    "Fern.C57_bound",
    "Fern.C57_function_body",
    "Fern.C57_if_ignored",
    "Fern.C57_module",
    "Fern.C57_reads",
    "Fern.C57_statements",
    "Fern.C57_unassigned",
    "Fern.C57_write_lost"
   ],
   "note": "For straight-line modules without subscripts whose operations have one result and are called with the right number of arguments. Statements other than assignments and expressions are shown to be ignored (if, while) or executed at their definition (functions)."
  },
  {
   "property": "C58",
   "status": "proved",
   "theorems": [
    "Fern.C58_exact",
    "Fern.C58_false",
    "Fern.C58_reversed",
    "Fern.C58_symmetric",
    "Fern.C58_unary"
   ],
   "note": "The claim is false; C58_reversed says which types are passed, C58_symmetric and C58_exact that symmetry of the rule is exactly what makes it harmless, C58_false has the counterexample for the standard rule."
  },
  {
   "property": "C59",
   "status": "proved",
   "theorems": [
    "Fern.C59_annotate_assign",
    "Fern.C59_annotate_attribute",
    "Fern.C59_annotate_expr",
    "Fern.C59_annotate_one",
    "Fern.C59_annotate_subscript",
    "Fern.C59_annotate_subscript_argument",
    "Fern.C59_annotate_total",
    "Fern.C59_execute_assign",
    "Fern.C59_execute_expr",
    "Fern.C59_execute_subscript",
    "Fern.C59_execute_subscript_argument"
   ],
   "note": "Annotation: any expression; execution: operations with one result. The counterexamples with subscripts are part of the statement."
  },
  {
   "property": "C60",
   "status": "proved",
   "theorems": [
    "Fern.C60_at_most_once",
    "Fern.C60_operands_first",
    "Fern.C60_order",
    "Fern.C60_reached",
    "Fern.C60_source_order",
    "Fern.C60_straight"
   ],
   "note": "Walks from the module until it is reached again are exactly the traces of a specification written over the syntax tree; consequences (each vertex at most once, every node reached, operands first, source order, a unique walk without if) are separate theorems."
  },
  {
   "property": "C61",
   "status": "proved",
   "theorems": [
    "Fern.C61_bodies",
    "Fern.C61_chain",
    "Fern.C61_loop_false",
    "Fern.C61_meaning",
    "Fern.C61_nested",
    "Fern.C61_reassigned",
    "Fern.C61_result",
    "Fern.C61_terminates"
   ],
   "note": "The claim is false in general (C61_reassigned, C61_chain, C61_nested, C61_loop_false); proved under the conditions named in the statement."
  },
  {
   "property": "C62",
   "status": "proved",
   "theorems": [
    "Fern.C62_count",
    "Fern.C62_inputs",
    "Fern.C62_inputs_defined",
    "Fern.C62_inputs_mem",
    "Fern.C62_outputs_assigned",
    "Fern.C62_outputs_distinct",
    "Fern.C62_outputs_false",
    "Fern.C62_outputs_single",
    "Fern.C62_succeeds"
   ],
   "note": "The statement contains the counterexample; it is C62_outputs_false. For modules in which at most one name is reassigned the outputs are the last assignments."
  },
  {
   "property": "C63",
   "status": "proved",
   "theorems": [
    "Fern.C63_checkAll_error",
    "Fern.C63_checkAll_ok",
    "Fern.C63_error",
    "Fern.C63_module_error",
    "Fern.C63_module_ok",
    "Fern.C63_no_failure",
    "Fern.C63_ok",
    "Fern.C63_problem_unique"
   ],
   "note": "For expressions and modules whose name vertices have one type, which annotation establishes."
  },
  {
   "property": "C64",
   "status": "proved",
   "theorems": [
    "Fern.C64_bytes",
    "Fern.C64_expr_injective",
    "Fern.C64_expr_printed",
    "Fern.C64_function",
    "Fern.C64_module_iff",
    "Fern.C64_module_injective",
    "Fern.C64_no_tabs",
    "Fern.C64_quotes"
   ],
   "note": ""
  },
  {
   "property": "C65",
   "status": "proved",
   "theorems": [
    "Fern.C65_called_once",
    "Fern.C65_called_twice",
    "Fern.C65_function_behind_return",
    "Fern.C65_order",
    "Fern.C65_recursion",
    "Fern.C65_return_in_if",
    "Fern.C65_second_call",
    "Fern.C65_threads",
    "Fern.C65_while"
   ],
   "note": "The claim is false (C65_called_twice); C65_threads says exactly which modules can be threaded, C65_order and C65_called_once that the order is right then. Constructs that fail are also shown by witnesses."
  },
  {
   "property": "C66",
   "status": "proved",
   "theorems": [
    "Fern.C66_2d",
    "Fern.C66_max_1d",
    "Fern.C66_min_1d",
    "Fern.C66_parallel"
   ],
   "note": ""
  },
  {
   "property": "C67",
   "status": "proved",
   "theorems": [
    "Fern.C67_mean_1d",
    "Fern.C67_mean_division_by_zero",
    "Fern.C67_mean_division_by_zero_u8",
    "Fern.C67_mean_parallel",
    "Fern.C67_mean_wrong_sign"
   ],
   "note": ""
  },
  {
   "property": "C68",
   "status": "proved",
   "theorems": [
    "Fern.C68_replace",
    "Fern.C68_single_pass",
    "Fern.C68_substrings"
   ],
   "note": ""
  },
  {
   "property": "C69",
   "status": "proved",
   "theorems": [
    "Fern.C69_overrun",
    "Fern.C69_ragged_false",
    "Fern.C69_rectangular"
   ],
   "note": ""
  },
  {
   "property": "C70",
   "status": "proved",
   "theorems": [
    "Fern.C70_division",
    "Fern.C70_division2",
    "Fern.C70_empty2_iff",
    "Fern.C70_empty_iff",
    "Fern.C70_make",
    "Fern.C70_size",
    "Fern.C70_size2"
   ],
   "note": ""
  },
  {
   "property": "C71",
   "status": "proved",
   "theorems": [
    "Fern.C71_convolve",
    "Fern.C71_isolated",
    "Fern.C71_isolated_no_data",
    "Fern.C71_no_data",
    "Fern.C71_out_of_image",
    "Fern.C71_radius_one",
    "Fern.C71_two_columns",
    "Fern.C71_two_rows"
   ],
   "note": "False for images of exactly twice the radius (C71_two_rows, C71_two_columns) and for isolated no-data cells (C71_isolated); proved otherwise, also composed with the convolution itself (C71_convolve)."
  },
  {
   "property": "C72",
   "status": "proved",
   "theorems": [
    "Fern.C72_linear_x",
    "Fern.C72_linear_y",
    "Fern.C72_x",
    "Fern.C72_x_one_column",
    "Fern.C72_y",
    "Fern.C72_y_one_row"
   ],
   "note": "The division itself is an operation on abstract values (C72_x, C72_y); C72_linear_* use exact arithmetic. C72_x_one_column and C72_y_one_row show which rasters fail."
  },
  {
   "property": "C73",
   "status": "proved",
   "theorems": [
    "Fern.C73_binary_1d",
    "Fern.C73_binary_2d",
    "Fern.C73_binary_2d_checked_after",
    "Fern.C73_checked_after_false",
    "Fern.C73_copy_left",
    "Fern.C73_copy_unary",
    "Fern.C73_result_only",
    "Fern.C73_unary_1d",
    "Fern.C73_unary_2d"
   ],
   "note": "C73_binary_2d_checked_after needs no assumption on the range policy; the others assume that it gives the same answer if it sees the new value in place of the overwritten argument (C73_result_only: true of policies that look at the result only; C73_checked_after_false: false of addition and multiplication). Elements are the steps of the tasks; the reads and writes of one element are not interleaved with those of another task, which handles other elements."
  },
  {
   "property": "C74",
   "status": "proved",
   "theorems": [
    "Fern.C74_constant",
    "Fern.C74_exact",
    "Fern.C74_extents",
    "Fern.C74_laplacian",
    "Fern.C74_masked_before",
    "Fern.C74_maximum",
    "Fern.C74_paraboloid",
    "Fern.C74_plane",
    "Fern.C74_small",
    "Fern.C74_unmarked",
    "Fern.C74_weights"
   ],
   "note": "The arithmetic is abstract (C74_laplacian, C74_unmarked); C74_exact and what follows from it use exact numbers. C74_masked_before is the exception for cells that are masked beforehand."
  },
  {
   "property": "C75",
   "status": "proved",
   "theorems": [
    "Fern.C75_bounds",
    "Fern.C75_exact",
    "Fern.C75_extents",
    "Fern.C75_fractions",
    "Fern.C75_lax",
    "Fern.C75_small",
    "Fern.C75_unmarked"
   ],
   "note": "The arithmetic is abstract (C75_lax, C75_unmarked); C75_exact, C75_fractions and C75_bounds use exact numbers."
  },
  {
   "property": "C76",
   "status": "proved",
   "theorems": [
    "Fern.C76_constant",
    "Fern.C76_exact",
    "Fern.C76_extents",
    "Fern.C76_masked_before",
    "Fern.C76_plane",
    "Fern.C76_plane_border",
    "Fern.C76_slope",
    "Fern.C76_small",
    "Fern.C76_two_rows",
    "Fern.C76_unmarked"
   ],
   "note": "The arithmetic, the power and the square root are abstract (C76_slope, C76_unmarked); C76_exact and what follows from it use exact numbers. C76_masked_before, C76_small and C76_two_rows are the exceptions named in the statement."
  },
  {
   "property": "C77",
   "status": "proved",
   "theorems": [
    "Fern.C77_after_refusal",
    "Fern.C77_attribute_fails",
    "Fern.C77_execute",
    "Fern.C77_function_refused",
    "Fern.C77_if_not_sound",
    "Fern.C77_meaning",
    "Fern.C77_parameter_refused",
    "Fern.C77_ready",
    "Fern.C77_session",
    "Fern.C77_subscript_stacks",
    "Fern.C77_total",
    "Fern.C77_twice",
    "Fern.C77_unknown",
    "Fern.C77_unused_source",
    "Fern.C77_validate_total",
    "Fern.C77_value_lost"
   ],
   "note": "Type soundness of the interpreter for assignments and expressions: C77_execute, C77_ready, C77_total and, over sequences of calls, C77_session; C77_meaning gives the values. The failures named in the statement are C77_after_refusal, C77_unused_source, C77_value_lost, C77_if_not_sound, C77_subscript_stacks and C77_attribute_fails."
  },
  {
   "property": "C78",
   "status": "proved",
   "theorems": [
    "Fern.C78_bound",
    "Fern.C78_deviation_state",
    "Fern.C78_empty",
    "Fern.C78_first",
    "Fern.C78_integers",
    "Fern.C78_integers_shift",
    "Fern.C78_merged",
    "Fern.C78_merged_deviation",
    "Fern.C78_merged_result",
    "Fern.C78_merged_state",
    "Fern.C78_moments",
    "Fern.C78_nonneg",
    "Fern.C78_order",
    "Fern.C78_parts",
    "Fern.C78_result",
    "Fern.C78_scale",
    "Fern.C78_shift",
    "Fern.C78_standard_deviation",
    "Fern.C78_standard_deviation_sq",
    "Fern.C78_state",
    "Fern.C78_variance",
    "Fern.C78_zero"
   ],
   "note": "C78_state and C78_merged_state hold for any arithmetic; the other theorems use exact numbers (any field, ordered where needed), the square root being any function. C78_integers and C78_integers_shift are the exceptions for integers."
  },
  {
   "property": "C79",
   "status": "proved",
   "theorems": [
    "Fern.C79_contains_attribute",
    "Fern.C79_contains_feature",
    "Fern.C79_history",
    "Fern.C79_new_dataset",
    "Fern.C79_other_type",
    "Fern.C79_others",
    "Fern.C79_read",
    "Fern.C79_read_back",
    "Fern.C79_root",
    "Fern.C79_tree",
    "Fern.C79_two_levels",
    "Fern.C79_write"
   ],
   "note": "The HDF5 library is trusted to keep a tree of objects; what it stores if types differ is any function. C79_two_levels and C79_new_dataset are the failures named in the statement."
  },
  {
   "property": "C80",
   "status": "proved",
   "theorems": [
    "Fern.C80_exists",
    "Fern.C80_format",
    "Fern.C80_keys_and_names",
    "Fern.C80_no_drivers",
    "Fern.C80_open",
    "Fern.C80_order",
    "Fern.C80_unknown_format"
   ],
   "note": "Drivers are any functions on any world. C80_keys_and_names shows what happens if drivers are not registered by their name."
  },
  {
   "property": "C81",
   "status": "proved",
   "theorems": [
    "Fern.C81_asking",
    "Fern.C81_asking_to_overwrite",
    "Fern.C81_can_open",
    "Fern.C81_exists_destroys",
    "Fern.C81_missing_data",
    "Fern.C81_opened",
    "Fern.C81_overwrite_without_format",
    "Fern.C81_read",
    "Fern.C81_read_refused",
    "Fern.C81_write_existing",
    "Fern.C81_write_new",
    "Fern.C81_write_read",
    "Fern.C81_write_refused"
   ],
   "note": "C81_write_existing, C81_write_new and C81_write_refused say what writing does to the disk, C81_read what reading gives, C81_write_read combines them. C81_asking_to_overwrite, C81_exists_destroys, C81_overwrite_without_format and C81_missing_data are the exceptions named in the statement."
  },
  {
   "property": "C82",
   "status": "proved",
   "theorems": [
    "Fern.C82_counts",
    "Fern.C82_dataset_ignored",
    "Fern.C82_effects_of_arguments",
    "Fern.C82_effects_remain",
    "Fern.C82_missing_data",
    "Fern.C82_no_datasets",
    "Fern.C82_not_enough",
    "Fern.C82_parse",
    "Fern.C82_results_lost",
    "Fern.C82_start",
    "Fern.C82_too_many"
   ],
   "note": "Conversions of strings to numbers and drivers are any functions. C82_dataset_ignored, C82_missing_data and C82_results_lost are the exceptions named in the statement."
  },
  {
   "property": "C83",
   "status": "proved",
   "theorems": [
    "Fern.C83_accepted",
    "Fern.C83_arguments",
    "Fern.C83_attribute",
    "Fern.C83_brackets",
    "Fern.C83_declared",
    "Fern.C83_lines",
    "Fern.C83_mismatch",
    "Fern.C83_module",
    "Fern.C83_names_glued",
    "Fern.C83_number_lost",
    "Fern.C83_run"
   ],
   "note": "C++ is modelled as far as brackets and declarations go, and by what the four kinds of lines do that an accepted function has (C83_lines, C83_run)."
  },
  {
   "property": "C84",
   "status": "proved",
   "theorems": [
    "Fern.Script.C84_attributes",
    "Fern.Script.C84_dropped",
    "Fern.Script.C84_float",
    "Fern.Script.C84_integer",
    "Fern.Script.C84_less",
    "Fern.Script.C84_line_end",
    "Fern.Script.C84_long",
    "Fern.Script.C84_markup",
    "Fern.Script.C84_null",
    "Fern.Script.C84_operands",
    "Fern.Script.C84_position",
    "Fern.Script.C84_reference",
    "Fern.Script.C84_refused",
    "Fern.Script.C84_signed",
    "Fern.Script.C84_sized_float",
    "Fern.Script.C84_subscripts",
    "Fern.Script.C84_tree",
    "Fern.Script.C84_unsigned",
    "Fern.Script.C84_written"
   ],
   "note": "XML is modelled character by character as far as Fern writes it; the Python parser is trusted. C84_tree is the general theorem, C84_refused the one on refusals; the exceptions in the statement are the other theorems."
  },
  {
   "property": "C85",
   "status": "proved",
   "theorems": [
    "Fern.Domains.C85_acos",
    "Fern.Domains.C85_asin",
    "Fern.Domains.C85_factorial",
    "Fern.Domains.C85_factorial_float",
    "Fern.Domains.C85_factorial_range",
    "Fern.Domains.C85_factorial_raster",
    "Fern.Domains.C85_log",
    "Fern.Domains.C85_log_base",
    "Fern.Domains.C85_log_raster",
    "Fern.Domains.C85_log_zero",
    "Fern.Domains.C85_nearest_even",
    "Fern.Domains.C85_pow",
    "Fern.Domains.C85_pow_infinite",
    "Fern.Domains.C85_pow_raster",
    "Fern.Domains.C85_round",
    "Fern.Domains.C85_sin",
    "Fern.Domains.C85_sqrt",
    "Fern.Domains.C85_sqrt_raster",
    "Fern.Domains.C85_tan",
    "Fern.Domains.C85_tan_defined",
    "Fern.Domains.C85_tan_infinite",
    "Fern.Domains.C85_tan_refused",
    "Fern.Domains.C85_tan_undefined",
    "Fern.Domains.C85_tgamma",
    "Fern.Domains.C85_tgamma_raster",
    "Fern.Domains.C85_tgamma_zero",
    "Fern.Domains.C85_trigonometry_raster",
    "Fern.Domains.C85_trunc"
   ],
   "note": "The functions of the C++ library are parameters; where functions are defined is stated with the real functions of Mathlib. C85_tgamma_zero, C85_log_zero, C85_tan_refused, C85_tan_undefined and the last part of C85_factorial are the exceptions named in the statement."
  },
  {
   "property": "C86",
   "status": "proved",
   "theorems": [
    "Fern.Features.C86_absolute",
    "Fern.Features.C86_add_attribute",
    "Fern.Features.C86_add_attribute_again",
    "Fern.Features.C86_add_feature",
    "Fern.Features.C86_add_feature_nested",
    "Fern.Features.C86_add_feature_nested_throws",
    "Fern.Features.C86_added_attribute",
    "Fern.Features.C86_added_feature",
    "Fern.Features.C86_attribute",
    "Fern.Features.C86_attribute_missing",
    "Fern.Features.C86_attribute_no_feature",
    "Fern.Features.C86_contains_attribute",
    "Fern.Features.C86_contains_attribute_nested",
    "Fern.Features.C86_contains_feature",
    "Fern.Features.C86_data_name_path",
    "Fern.Features.C86_feature",
    "Fern.Features.C86_names",
    "Fern.Features.C86_nr_attributes",
    "Fern.Features.C86_nr_attributes_witness",
    "Fern.Features.C86_nr_features",
    "Fern.Features.C86_path_names",
    "Fern.Features.C86_path_text",
    "Fern.Features.C86_trailing"
   ],
   "note": "Features live in a heap and can be shared. std::filesystem::path is modelled for POSIX systems, by its elements; std::map by an ordered list. C86_contains_attribute_nested, C86_add_feature_nested, C86_add_feature_nested_throws, C86_nr_attributes, C86_absolute and C86_trailing are the exceptions named in the statement."
  },
  {
   "property": "C87",
   "status": "proved",
   "theorems": [
    "Fern.Gdal.C87_bands",
    "Fern.Gdal.C87_cannot_create",
    "Fern.Gdal.C87_complex",
    "Fern.Gdal.C87_mask_lost",
    "Fern.Gdal.C87_name",
    "Fern.Gdal.C87_north_up",
    "Fern.Gdal.C87_not_square",
    "Fern.Gdal.C87_open_keeps",
    "Fern.Gdal.C87_open_overwrite",
    "Fern.Gdal.C87_open_read",
    "Fern.Gdal.C87_paths",
    "Fern.Gdal.C87_py_absent",
    "Fern.Gdal.C87_py_nan",
    "Fern.Gdal.C87_py_read_origin",
    "Fern.Gdal.C87_py_read_values",
    "Fern.Gdal.C87_py_to_language",
    "Fern.Gdal.C87_py_transformation_lost",
    "Fern.Gdal.C87_py_write_read",
    "Fern.Gdal.C87_refused",
    "Fern.Gdal.C87_south_up",
    "Fern.Gdal.C87_update",
    "Fern.Gdal.C87_update_masked",
    "Fern.Gdal.C87_update_too_large",
    "Fern.Gdal.C87_upside_down",
    "Fern.Gdal.C87_write_frame",
    "Fern.Gdal.C87_write_once",
    "Fern.Gdal.C87_write_read"
   ],
   "note": "What GDAL does is written down in the first part of the model and trusted; formats are any record of abilities. Coordinates are exact. C87_write_read, C87_write_frame, C87_paths, C87_py_write_read and C87_py_to_language are the claim, the other theorems the exceptions named in the statement."
  },
  {
   "property": "C88",
   "status": "proved",
   "theorems": [
    "Fern.PyOps.C88_add_mixed",
    "Fern.PyOps.C88_add_signed",
    "Fern.PyOps.C88_add_uint64_false",
    "Fern.PyOps.C88_add_unsigned",
    "Fern.PyOps.C88_commutes",
    "Fern.PyOps.C88_compare",
    "Fern.PyOps.C88_compare_number",
    "Fern.PyOps.C88_iadd_signed",
    "Fern.PyOps.C88_iadd_unsigned",
    "Fern.PyOps.C88_if",
    "Fern.PyOps.C88_if_number",
    "Fern.PyOps.C88_if_sizes_differ",
    "Fern.PyOps.C88_imultiply_signed",
    "Fern.PyOps.C88_imultiply_unsigned",
    "Fern.PyOps.C88_lists",
    "Fern.PyOps.C88_lists_empty",
    "Fern.PyOps.C88_multiply_signed",
    "Fern.PyOps.C88_multiply_undefined",
    "Fern.PyOps.C88_multiply_unsigned",
    "Fern.PyOps.C88_number_commutes",
    "Fern.PyOps.C88_number_signed",
    "Fern.PyOps.C88_number_unsigned",
    "Fern.PyOps.C88_seen_exact",
    "Fern.PyOps.C88_sizes_differ",
    "Fern.PyOps.C88_types_differ",
    "Fern.PyOps.C88_unsupported",
    "Fern.PyOps.C88_unsupported_made",
    "Fern.PyOps.C88_zeros"
   ],
   "note": "Rasters of integers; numbers that Python passes as 64 bit integers. The exceptions in the statement are parts of the theorems, with C88_add_uint64_false, C88_types_differ and C88_unsupported."
  },
  {
   "property": "C89",
   "status": "proved",
   "theorems": [
    "Fern.Messages.C89_ambiguous",
    "Fern.Messages.C89_bare",
    "Fern.Messages.C89_bare_text",
    "Fern.Messages.C89_described",
    "Fern.Messages.C89_format",
    "Fern.Messages.C89_format_few",
    "Fern.Messages.C89_format_many",
    "Fern.Messages.C89_io",
    "Fern.Messages.C89_message",
    "Fern.Messages.C89_parse",
    "Fern.Messages.C89_parse_determined",
    "Fern.Messages.C89_statement",
    "Fern.Messages.C89_statement_empty",
    "Fern.Messages.C89_syntax_undescribed",
    "Fern.Messages.C89_total",
    "Fern.Messages.C89_uses",
    "Fern.Messages.C89_validate",
    "Fern.Messages.C89_validate_determined"
   ],
   "note": "Of boost::format the directives %N% and %% are modelled. The exceptions in the statement are C89_statement_empty, C89_syntax_undescribed and C89_ambiguous."
  },
  {
   "property": "C90",
   "status": "proved",
   "theorems": [
    "Fern.Command.C90_cpp",
    "Fern.Command.C90_cpp_refused",
    "Fern.Command.C90_dataset_undescribed",
    "Fern.Command.C90_describe",
    "Fern.Command.C90_describe_abort",
    "Fern.Command.C90_describe_missing",
    "Fern.Command.C90_dot_ast",
    "Fern.Command.C90_dot_error",
    "Fern.Command.C90_dot_flowgraph",
    "Fern.Command.C90_dot_refused",
    "Fern.Command.C90_execute",
    "Fern.Command.C90_execute_error",
    "Fern.Command.C90_failure_told",
    "Fern.Command.C90_flowgraph_refused",
    "Fern.Command.C90_interactive",
    "Fern.Command.C90_known",
    "Fern.Command.C90_nothing_done",
    "Fern.Command.C90_options",
    "Fern.Command.C90_refused",
    "Fern.Command.C90_unknown",
    "Fern.Command.C90_unknown_graph",
    "Fern.Command.C90_unknown_language"
   ],
   "note": "The parser, interpreter, visitors, compiler and datasets are any functions that may fail or abort. Includes the cases in which the command does not do what its help says."
  },
  {
   "property": "C91",
   "status": "proved",
   "theorems": [
    "Fern.Casts.C91_boolean",
    "Fern.Casts.C91_checked",
    "Fern.Casts.C91_double",
    "Fern.Casts.C91_exact",
    "Fern.Casts.C91_float",
    "Fern.Casts.C91_integers",
    "Fern.Casts.C91_raster",
    "Fern.Casts.C91_round_even",
    "Fern.Casts.C91_round_exact",
    "Fern.Casts.C91_round_mono",
    "Fern.Casts.C91_round_nearest",
    "Fern.Casts.C91_round_neg",
    "Fern.Casts.C91_round_overflow",
    "Fern.Casts.C91_small",
    "Fern.Casts.C91_supported",
    "Fern.Casts.C91_there_and_back",
    "Fern.Casts.C91_there_and_back_false",
    "Fern.Casts.C91_truncated",
    "Fern.Casts.C91_unsupported"
   ],
   "note": "Includes the combinations of types without policy and the values that do not survive."
  },
  {
   "property": "C92",
   "status": "proved",
   "theorems": [
    "Fern.Casts.C92_commutative_false",
    "Fern.Casts.C92_max",
    "Fern.Casts.C92_max_float",
    "Fern.Casts.C92_min",
    "Fern.Casts.C92_min_float",
    "Fern.Casts.C92_nan",
    "Fern.Casts.C92_raster",
    "Fern.Casts.C92_raster_float",
    "Fern.Casts.C92_sign",
    "Fern.Casts.C92_sign_float"
   ],
   "note": "Includes the behaviour for NaN, for which the extremes are not commutative."
  },
  {
   "property": "C93",
   "status": "proved",
   "theorems": [
    "Fern.C93_accepted",
    "Fern.C93_executed",
    "Fern.C93_types"
   ],
   "note": "For modules of assignments and expressions without subscripts; the type system is stated over the source text."
  },
  {
   "property": "C94",
   "status": "proved",
   "theorems": [
    "Fern.Shell.C94_between",
    "Fern.Shell.C94_byte_shown_as_character",
    "Fern.Shell.C94_constant",
    "Fern.Shell.C94_determined",
    "Fern.Shell.C94_exact",
    "Fern.Shell.C94_feature",
    "Fern.Shell.C94_home",
    "Fern.Shell.C94_refused_then_fails",
    "Fern.Shell.C94_reversed",
    "Fern.Shell.C94_session",
    "Fern.Shell.C94_shown",
    "Fern.Shell.C94_unparsed"
   ],
   "note": "The parser is any function from lines to trees or errors. Includes the lines after which the program ends."
  },
  {
   "property": "C95",
   "status": "proved",
   "theorems": [
    "Fern.FloatArith.C95_absolute",
    "Fern.FloatArith.C95_add",
    "Fern.FloatArith.C95_associative_false",
    "Fern.FloatArith.C95_by_zero",
    "Fern.FloatArith.C95_commutative",
    "Fern.FloatArith.C95_determined",
    "Fern.FloatArith.C95_difference_zero",
    "Fern.FloatArith.C95_divide",
    "Fern.FloatArith.C95_divided_by_integer",
    "Fern.FloatArith.C95_error",
    "Fern.FloatArith.C95_error_sum",
    "Fern.FloatArith.C95_integers",
    "Fern.FloatArith.C95_mixed_add",
    "Fern.FloatArith.C95_mixed_divide",
    "Fern.FloatArith.C95_mixed_multiply",
    "Fern.FloatArith.C95_mixed_subtract",
    "Fern.FloatArith.C95_monotone",
    "Fern.FloatArith.C95_multiply",
    "Fern.FloatArith.C95_near",
    "Fern.FloatArith.C95_neutral",
    "Fern.FloatArith.C95_raster_add",
    "Fern.FloatArith.C95_raster_divide",
    "Fern.FloatArith.C95_special",
    "Fern.FloatArith.C95_special_divide",
    "Fern.FloatArith.C95_special_mixed",
    "Fern.FloatArith.C95_special_multiply",
    "Fern.FloatArith.C95_subtract",
    "Fern.FloatArith.C95_underflow_false"
   ],
   "note": "Trusted: the processor rounds to nearest even, as in IEEE 754. Signs of zeros are left out."
  },
  {
   "property": "C96",
   "status": "proved",
   "theorems": [
    "Fern.FloatArith.C96_exact_1d",
    "Fern.FloatArith.C96_exact_2d",
    "Fern.FloatArith.C96_mean_1d",
    "Fern.FloatArith.C96_mean_2d",
    "Fern.FloatArith.C96_mean_parallel_1d",
    "Fern.FloatArith.C96_mean_parallel_2d",
    "Fern.FloatArith.C96_near",
    "Fern.FloatArith.C96_order_false",
    "Fern.FloatArith.C96_sequential",
    "Fern.FloatArith.C96_sequential_2d",
    "Fern.FloatArith.C96_sum_1d",
    "Fern.FloatArith.C96_sum_2d",
    "Fern.FloatArith.C96_sum_parallel_1d",
    "Fern.FloatArith.C96_sum_parallel_2d",
    "Fern.FloatArith.C96_threads_false"
   ],
   "note": "Trusted: the processor rounds to nearest even, as in IEEE 754. Includes the cases in which the number of threads and the order of the cells matter."
  },
  {
   "property": "C97",
   "status": "proved",
   "theorems": [
    "Fern.FloatArith.C97_determined",
    "Fern.FloatArith.C97_fixed",
    "Fern.FloatArith.C97_half_false",
    "Fern.FloatArith.C97_idempotent",
    "Fern.FloatArith.C97_monotone",
    "Fern.FloatArith.C97_negate",
    "Fern.FloatArith.C97_raster",
    "Fern.FloatArith.C97_trunc_cast",
    "Fern.FloatArith.C97_whole"
   ],
   "note": "Trusted: the functions of the standard library. Signs of zeros are left out."
  },
  {
   "property": "C98",
   "status": "proved",
   "theorems": [
    "Fern.Programs.C98_collision_false",
    "Fern.Programs.C98_fresh",
    "Fern.Programs.C98_nan_false",
    "Fern.Programs.C98_no_collision",
    "Fern.Programs.C98_numbers",
    "Fern.Programs.C98_program",
    "Fern.Programs.C98_stale_false",
    "Fern.Programs.C98_threads"
   ],
   "note": "The programs are those of users: any sequence of calls. Includes the three ways in which missing values get lost or stick."
  },
  {
   "property": "C99",
   "status": "proved",
   "theorems": [
    "Fern.Dot.C99_annotated",
    "Fern.Dot.C99_attribute_false",
    "Fern.Dot.C99_boxes",
    "Fern.Dot.C99_bytes",
    "Fern.Dot.C99_colours",
    "Fern.Dot.C99_control",
    "Fern.Dot.C99_control_false",
    "Fern.Dot.C99_drawn_iff",
    "Fern.Dot.C99_edges",
    "Fern.Dot.C99_forest",
    "Fern.Dot.C99_labels",
    "Fern.Dot.C99_labels_statement",
    "Fern.Dot.C99_labels_target",
    "Fern.Dot.C99_links",
    "Fern.Dot.C99_nodes",
    "Fern.Dot.C99_numbers",
    "Fern.Dot.C99_order",
    "Fern.Dot.C99_scope_false",
    "Fern.Dot.C99_two_types",
    "Fern.Dot.C99_uses"
   ],
   "note": "Trusted: how an address and a floating point number are written. Includes what the graph leaves out."
  },
  {
   "property": "C100",
   "status": "proved",
   "theorems": [
    "Fern.Dot.C100_acyclic",
    "Fern.Dot.C100_annotated",
    "Fern.Dot.C100_attribute_false",
    "Fern.Dot.C100_boxes",
    "Fern.Dot.C100_branch_false",
    "Fern.Dot.C100_condition_false",
    "Fern.Dot.C100_declared",
    "Fern.Dot.C100_drawn_iff",
    "Fern.Dot.C100_edges",
    "Fern.Dot.C100_if_isolated",
    "Fern.Dot.C100_influence",
    "Fern.Dot.C100_labels",
    "Fern.Dot.C100_labels_statement",
    "Fern.Dot.C100_loop_false",
    "Fern.Dot.C100_nodes",
    "Fern.Dot.C100_order"
   ],
   "note": "Trusted: how an address and a floating point number are written. Includes what the graph leaves out."
  },
  {
   "property": "C101",
   "status": "proved",
   "theorems": [
    "Fern.Dot.C101_ast",
    "Fern.Dot.C101_backslash_false",
    "Fern.Dot.C101_byte_false",
    "Fern.Dot.C101_flow",
    "Fern.Dot.C101_injected_false",
    "Fern.Dot.C101_injective",
    "Fern.Dot.C101_quote_false",
    "Fern.Dot.C101_source_false",
    "Fern.Dot.C101_string_iff"
   ],
   "note": "Trusted: how an address and a floating point number are written; the reader is part of the specification."
  },
  {
   "property": "C102",
   "status": "proved",
   "theorems": [
    "Fern.Clients.C102_buggy_false",
    "Fern.Clients.C102_dangling_false",
    "Fern.Clients.C102_last",
    "Fern.Clients.C102_nothing_left",
    "Fern.Clients.C102_provided",
    "Fern.Clients.C102_python_count",
    "Fern.Clients.C102_python_false",
    "Fern.Clients.C102_shared_false",
    "Fern.Clients.C102_unloaded_false"
   ],
   "note": "Trusted: what registering and deregistering do to the libraries. Includes the mixtures of clients for which it fails."
  },
  {
   "property": "C103",
   "status": "proved",
   "theorems": [
    "Fern.Parsing.C103_alive",
    "Fern.Parsing.C103_balanced",
    "Fern.Parsing.C103_exhausted",
    "Fern.Parsing.C103_files",
    "Fern.Parsing.C103_leak",
    "Fern.Parsing.C103_leak_example",
    "Fern.Parsing.C103_parsed",
    "Fern.Parsing.C103_reported",
    "Fern.Parsing.C103_text",
    "Fern.Parsing.C103_unreported"
   ],
   "note": "Trusted: Python and the limit of open files. Includes the leak, the errors that are not reported, and the files that are not closed."
  },
  {
   "property": "C104",
   "status": "proved",
   "theorems": [
    "Fern.Trees.C104_const",
    "Fern.Trees.C104_declared",
    "Fern.Trees.C104_declared_false",
    "Fern.Trees.C104_ends",
    "Fern.Trees.C104_exact",
    "Fern.Trees.C104_ill_typed",
    "Fern.Trees.C104_order_false",
    "Fern.Trees.C104_raster",
    "Fern.Trees.C104_same_shape",
    "Fern.Trees.C104_shapes",
    "Fern.Trees.C104_text",
    "Fern.Trees.C104_text_false",
    "Fern.Trees.C104_typed",
    "Fern.Trees.C104_unique"
   ],
   "note": "Trusted: std::sqrt and the format of floating point numbers are arguments. Includes ill-typed trees and texts without end."
  },
  {
   "property": "C105",
   "status": "proved",
   "theorems": [
    "Fern.Handles.C105_assigned_false",
    "Fern.Handles.C105_destroy",
    "Fern.Handles.C105_drained",
    "Fern.Handles.C105_move_new",
    "Fern.Handles.C105_move_to",
    "Fern.Handles.C105_moved_false",
    "Fern.Handles.C105_others",
    "Fern.Handles.C105_owned",
    "Fern.Handles.C105_queries",
    "Fern.Handles.C105_reads_writes_false",
    "Fern.Handles.C105_reused_false",
    "Fern.Handles.C105_self",
    "Fern.Handles.C105_still",
    "Fern.Handles.C105_twice_false",
    "Fern.Handles.C105_types_false",
    "Fern.Handles.C105_write"
   ],
   "note": "Trusted: a library gives positive identifiers that are not in use. Includes refutations for the handles with defaulted moves and for the identifiers of types."
  },
  {
   "property": "C106",
   "status": "proved",
   "theorems": [
    "Fern.Netcdf.C106_absent",
    "Fern.Netcdf.C106_blanks",
    "Fern.Netcdf.C106_commas",
    "Fern.Netcdf.C106_conforms",
    "Fern.Netcdf.C106_empty_false",
    "Fern.Netcdf.C106_errors",
    "Fern.Netcdf.C106_fails",
    "Fern.Netcdf.C106_named",
    "Fern.Netcdf.C106_path_false",
    "Fern.Netcdf.C106_read",
    "Fern.Netcdf.C106_single_false",
    "Fern.Netcdf.C106_types",
    "Fern.Netcdf.C106_unusable",
    "Fern.Netcdf.C106_usual"
   ],
   "note": "Trusted: netCDF finds attributes and variables by name. Includes the cases in which an assertion fails."
  },
  {
   "property": "C107",
   "status": "proved",
   "theorems": [
    "Fern.StdOps.C107_add_false",
    "Fern.StdOps.C107_added",
    "Fern.StdOps.C107_constant",
    "Fern.StdOps.C107_field",
    "Fern.StdOps.C107_field_float",
    "Fern.StdOps.C107_field_not",
    "Fern.StdOps.C107_float",
    "Fern.StdOps.C107_found",
    "Fern.StdOps.C107_kept",
    "Fern.StdOps.C107_kind",
    "Fern.StdOps.C107_least",
    "Fern.StdOps.C107_negative_false",
    "Fern.StdOps.C107_twice",
    "Fern.StdOps.C107_unsupported"
   ],
   "note": "Includes the exceptions: the least value of a type, arrays without rows, operations without results."
  },
  {
   "property": "C108",
   "status": "proved",
   "theorems": [
    "Fern.StdOps.C108_hidden",
    "Fern.StdOps.C108_length",
    "Fern.StdOps.C108_long",
    "Fern.StdOps.C108_others",
    "Fern.StdOps.C108_readable",
    "Fern.StdOps.C108_same_false",
    "Fern.StdOps.C108_short"
   ],
   "note": ""
  },
  {
   "property": "C109",
   "status": "proved",
   "theorems": [
    "Fern.Kernels.C109_changed",
    "Fern.Kernels.C109_constant",
    "Fern.Kernels.C109_fits",
    "Fern.Kernels.C109_made",
    "Fern.Kernels.C109_made_square",
    "Fern.Kernels.C109_neighbourhood",
    "Fern.Kernels.C109_outside",
    "Fern.Kernels.C109_same",
    "Fern.Kernels.C109_weights",
    "Fern.Kernels.C109_weights_square"
   ],
   "note": ""
  },
  {
   "property": "C110",
   "status": "proved",
   "theorems": [
    "Fern.Smooth.C110_constant",
    "Fern.Smooth.C110_identity",
    "Fern.Smooth.C110_left_right",
    "Fern.Smooth.C110_local",
    "Fern.Smooth.C110_negative_false",
    "Fern.Smooth.C110_range",
    "Fern.Smooth.C110_scaled_kernel",
    "Fern.Smooth.C110_transposed",
    "Fern.Smooth.C110_units",
    "Fern.Smooth.C110_up_down"
   ],
   "note": "In exact arithmetic, except for C110_local."
  },
  {
   "property": "C111",
   "status": "proved",
   "theorems": [
    "Fern.FileTypes.C111_changed",
    "Fern.FileTypes.C111_expression_type",
    "Fern.FileTypes.C111_file",
    "Fern.FileTypes.C111_history",
    "Fern.FileTypes.C111_last_false",
    "Fern.FileTypes.C111_new",
    "Fern.FileTypes.C111_not_scalar",
    "Fern.FileTypes.C111_other_class",
    "Fern.FileTypes.C111_read",
    "Fern.FileTypes.C111_recognised",
    "Fern.FileTypes.C111_types",
    "Fern.FileTypes.C111_writable"
   ],
   "note": ""
  },
  {
   "property": "C112",
   "status": "proved",
   "theorems": [
    "Fern.Compiler.C112_above",
    "Fern.Compiler.C112_declared",
    "Fern.Compiler.C112_defined",
    "Fern.Compiler.C112_directory",
    "Fern.Compiler.C112_driver",
    "Fern.Compiler.C112_exists",
    "Fern.Compiler.C112_files",
    "Fern.Compiler.C112_half_false",
    "Fern.Compiler.C112_main",
    "Fern.Compiler.C112_names",
    "Fern.Compiler.C112_others",
    "Fern.Compiler.C112_overwrite",
    "Fern.Compiler.C112_overwrite_false",
    "Fern.Compiler.C112_parent_false",
    "Fern.Compiler.C112_stem",
    "Fern.Compiler.C112_succeeds",
    "Fern.Compiler.C112_throws",
    "Fern.Compiler.C112_untouched",
    "Fern.Compiler.C112_writable",
    "Fern.Compiler.C112_write"
   ],
   "note": ""
  },
  {
   "property": "C113",
   "status": "proved",
   "theorems": [
    "Fern.PySession.C113_arrays",
    "Fern.PySession.C113_call",
    "Fern.PySession.C113_lists",
    "Fern.PySession.C113_look",
    "Fern.PySession.C113_look_unsupported",
    "Fern.PySession.C113_operand",
    "Fern.PySession.C113_operators",
    "Fern.PySession.C113_plus",
    "Fern.PySession.C113_plus_lost",
    "Fern.PySession.C113_plus_number",
    "Fern.PySession.C113_plus_twice",
    "Fern.PySession.C113_sound",
    "Fern.PySession.C113_start",
    "Fern.PySession.C113_times",
    "Fern.PySession.C113_times_false",
    "Fern.PySession.C113_values"
   ],
   "note": ""
  },
  {
   "property": "C114",
   "status": "proved",
   "theorems": [
    "Fern.PoolRun.C114_convolve",
    "Fern.PoolRun.C114_enabled",
    "Fern.PoolRun.C114_local_2d",
    "Fern.PoolRun.C114_nested",
    "Fern.PoolRun.C114_occupied",
    "Fern.PoolRun.C114_outcome",
    "Fern.PoolRun.C114_ready",
    "Fern.PoolRun.C114_returns",
    "Fern.PoolRun.C114_sequential",
    "Fern.PoolRun.C114_unary_1d"
   ],
   "note": ""
  },
  {
   "property": "C115",
   "status": "proved",
   "theorems": [
    "Fern.Descriptions.C115_asserts",
    "Fern.Descriptions.C115_collected",
    "Fern.Descriptions.C115_normal",
    "Fern.Descriptions.C115_not_relevant",
    "Fern.Descriptions.C115_parameter",
    "Fern.Descriptions.C115_parse",
    "Fern.Descriptions.C115_print",
    "Fern.Descriptions.C115_problem",
    "Fern.Descriptions.C115_result",
    "Fern.Descriptions.C115_schema_names"
   ],
   "note": "documents with operations and documents of uncertainty with lists are refused by failing assertions, as stated"
  },
  {
   "property": "C116",
   "status": "proved",
   "theorems": [
    "Fern.Futures.C116_aggregate_1d",
    "Fern.Futures.C116_aggregate_2d",
    "Fern.Futures.C116_all",
    "Fern.Futures.C116_dangling",
    "Fern.Futures.C116_get",
    "Fern.Futures.C116_ready",
    "Fern.Futures.C116_results",
    "Fern.Futures.C116_safe",
    "Fern.Futures.C116_safe_iff"
   ],
   "note": "operations with a task that throws leave tasks behind, as stated"
  },
  {
   "property": "C117",
   "status": "proved",
   "theorems": [
    "Fern.IntRaster.C117_0d0d",
    "Fern.IntRaster.C117_0d1d",
    "Fern.IntRaster.C117_0d2d",
    "Fern.IntRaster.C117_1d0d",
    "Fern.IntRaster.C117_1d1d",
    "Fern.IntRaster.C117_2d0d",
    "Fern.IntRaster.C117_2d2d",
    "Fern.IntRaster.C117_discard_range",
    "Fern.IntRaster.C117_narrow",
    "Fern.IntRaster.C117_narrow_defined",
    "Fern.IntRaster.C117_sizes",
    "Fern.IntRaster.C117_through",
    "Fern.IntRaster.C117_through_divide",
    "Fern.IntRaster.C117_through_false",
    "Fern.IntRaster.C117_unsigned_defined",
    "Fern.IntRaster.C117_wide_signed"
   ],
   "note": "the undefined cases are part of the statement and characterised exactly"
  },
  {
   "property": "C118",
   "status": "proved",
   "theorems": [
    "Fern.FloatRaster.C118_0d0d",
    "Fern.FloatRaster.C118_0d1d",
    "Fern.FloatRaster.C118_0d2d",
    "Fern.FloatRaster.C118_1d0d",
    "Fern.FloatRaster.C118_1d1d",
    "Fern.FloatRaster.C118_2d0d",
    "Fern.FloatRaster.C118_2d2d",
    "Fern.FloatRaster.C118_conversion_undefined",
    "Fern.FloatRaster.C118_divisor_lost",
    "Fern.FloatRaster.C118_floats",
    "Fern.FloatRaster.C118_floats_defined",
    "Fern.FloatRaster.C118_fraction_lost",
    "Fern.FloatRaster.C118_infinity",
    "Fern.FloatRaster.C118_mixed_difference",
    "Fern.FloatRaster.C118_mixed_sum",
    "Fern.FloatRaster.C118_number",
    "Fern.FloatRaster.C118_passed_float",
    "Fern.FloatRaster.C118_passed_integer",
    "Fern.FloatRaster.C118_passed_narrower",
    "Fern.FloatRaster.C118_passed_wider",
    "Fern.FloatRaster.C118_sizes"
   ],
   "note": "the failing and undefined cases are part of the statement and characterised exactly"
  },
  {
   "property": "C119",
   "status": "proved",
   "theorems": [
    "Fern.PyFloat.C119_arith",
    "Fern.PyFloat.C119_commutes",
    "Fern.PyFloat.C119_compare",
    "Fern.PyFloat.C119_compare_false",
    "Fern.PyFloat.C119_compare_integers",
    "Fern.PyFloat.C119_compare_number",
    "Fern.PyFloat.C119_compare_swap",
    "Fern.PyFloat.C119_determined",
    "Fern.PyFloat.C119_fraction",
    "Fern.PyFloat.C119_if",
    "Fern.PyFloat.C119_if_error",
    "Fern.PyFloat.C119_if_integer_false",
    "Fern.PyFloat.C119_if_integers",
    "Fern.PyFloat.C119_if_number",
    "Fern.PyFloat.C119_if_number_sizes_differ",
    "Fern.PyFloat.C119_if_sizes_differ",
    "Fern.PyFloat.C119_if_undefined",
    "Fern.PyFloat.C119_in_place",
    "Fern.PyFloat.C119_in_place_same",
    "Fern.PyFloat.C119_integer_number",
    "Fern.PyFloat.C119_integer_outcomes",
    "Fern.PyFloat.C119_integers",
    "Fern.PyFloat.C119_lists",
    "Fern.PyFloat.C119_lists_empty",
    "Fern.PyFloat.C119_number_commutes",
    "Fern.PyFloat.C119_numbers",
    "Fern.PyFloat.C119_raster_number",
    "Fern.PyFloat.C119_reserved_false",
    "Fern.PyFloat.C119_sizes_differ",
    "Fern.PyFloat.C119_types_differ",
    "Fern.PyFloat.C119_unsupported",
    "Fern.PyFloat.C119_unsupported_made",
    "Fern.PyFloat.C119_zeros"
   ],
   "note": "the cases in which values are lost or behaviour is undefined are part of the statement"
  },
  {
   "property": "C120",
   "status": "proved",
   "theorems": [
    "Fern.PyFloat.C120_arithmetic",
    "Fern.PyFloat.C120_exact",
    "Fern.PyFloat.C120_flat",
    "Fern.PyFloat.C120_flat_false",
    "Fern.PyFloat.C120_flat_float",
    "Fern.PyFloat.C120_integers",
    "Fern.PyFloat.C120_large_false",
    "Fern.PyFloat.C120_reserved_false",
    "Fern.PyFloat.C120_slope",
    "Fern.PyFloat.C120_small",
    "Fern.PyFloat.C120_sums",
    "Fern.PyFloat.C120_two_rows_false"
   ],
   "note": "the cases in which the slope is lost or not zero are part of the statement; std::pow and std::sqrt are parameters"
  },
  {
   "property": "C121",
   "status": "proved",
   "theorems": [
    "Fern.FloatVector.C121_area",
    "Fern.FloatVector.C121_exact",
    "Fern.FloatVector.C121_flat",
    "Fern.FloatVector.C121_flat_false",
    "Fern.FloatVector.C121_laplacian",
    "Fern.FloatVector.C121_large_false",
    "Fern.FloatVector.C121_lax",
    "Fern.FloatVector.C121_lax_bounds",
    "Fern.FloatVector.C121_lax_bounds_false"
   ],
   "note": "the cases in which rounding shows are part of the statement; float rasters do not compile (see C74)"
  },
  {
   "property": "C122",
   "status": "proved",
   "theorems": [
    "Fern.FloatConvolve.C122_average",
    "Fern.FloatConvolve.C122_average_boolean",
    "Fern.FloatConvolve.C122_boolean",
    "Fern.FloatConvolve.C122_constant",
    "Fern.FloatConvolve.C122_exact",
    "Fern.FloatConvolve.C122_exact_boolean",
    "Fern.FloatConvolve.C122_exact_integers",
    "Fern.FloatConvolve.C122_integers",
    "Fern.FloatConvolve.C122_large",
    "Fern.FloatConvolve.C122_products",
    "Fern.FloatConvolve.C122_quotient_unchecked",
    "Fern.FloatConvolve.C122_tenth",
    "Fern.FloatConvolve.C122_weighted",
    "Fern.FloatConvolve.C122_zero_weights"
   ],
   "note": "the cases in which rounding shows, and in which the range is checked too early, are part of the statement"
  },
  {
   "property": "C123",
   "status": "proved",
   "theorems": [
    "Fern.FloatSpread.C123_accumulated",
    "Fern.FloatSpread.C123_deviation",
    "Fern.FloatSpread.C123_equal",
    "Fern.FloatSpread.C123_equal_false",
    "Fern.FloatSpread.C123_error",
    "Fern.FloatSpread.C123_exact",
    "Fern.FloatSpread.C123_large",
    "Fern.FloatSpread.C123_merged_nan",
    "Fern.FloatSpread.C123_not_negative",
    "Fern.FloatSpread.C123_order_false",
    "Fern.FloatSpread.C123_sequential",
    "Fern.FloatSpread.C123_shift_false",
    "Fern.FloatSpread.C123_single",
    "Fern.FloatSpread.C123_standard_deviation",
    "Fern.FloatSpread.C123_total"
   ],
   "note": "what does not hold of rounded variances is part of the statement"
  },
  {
   "property": "C124",
   "status": "proved",
   "theorems": [
    "Fern.FloatGradient.C124_error",
    "Fern.FloatGradient.C124_flat",
    "Fern.FloatGradient.C124_large_cells",
    "Fern.FloatGradient.C124_linear",
    "Fern.FloatGradient.C124_linear_false",
    "Fern.FloatGradient.C124_not_a_number",
    "Fern.FloatGradient.C124_overflow",
    "Fern.FloatGradient.C124_rounded_twice",
    "Fern.FloatGradient.C124_sign"
   ],
   "note": "what rounding breaks, and what is stored unchecked, is part of the statement"
  },
  {
   "property": "C125",
   "status": "proved",
   "theorems": [
    "Fern.FloatOrder.C125_infinite_false",
    "Fern.FloatOrder.C125_max",
    "Fern.FloatOrder.C125_max_array",
    "Fern.FloatOrder.C125_max_none",
    "Fern.FloatOrder.C125_median_even",
    "Fern.FloatOrder.C125_median_nan",
    "Fern.FloatOrder.C125_median_none",
    "Fern.FloatOrder.C125_median_odd",
    "Fern.FloatOrder.C125_median_overflow",
    "Fern.FloatOrder.C125_min",
    "Fern.FloatOrder.C125_min_array",
    "Fern.FloatOrder.C125_min_none",
    "Fern.FloatOrder.C125_order",
    "Fern.FloatOrder.C125_parallel",
    "Fern.FloatOrder.C125_range",
    "Fern.FloatOrder.C125_range_infinite",
    "Fern.FloatOrder.C125_range_none",
    "Fern.FloatOrder.C125_range_overflow",
    "Fern.FloatOrder.C125_total"
   ],
   "note": "the caveats for infinite values and NaN are part of the statement"
  },
  {
   "property": "C126",
   "status": "proved",
   "theorems": [
    "Fern.FloatFocal.C126_average",
    "Fern.FloatFocal.C126_boolean",
    "Fern.FloatFocal.C126_exact",
    "Fern.FloatFocal.C126_flat",
    "Fern.FloatFocal.C126_integers",
    "Fern.FloatFocal.C126_large",
    "Fern.FloatFocal.C126_switched_off",
    "Fern.FloatFocal.C126_tenth",
    "Fern.FloatFocal.C126_weighted",
    "Fern.FloatFocal.C126_zero_weights"
   ],
   "note": "the cases in which rounding shows, and in which zero weights count, are part of the statement"
  },
  {
   "property": "C127",
   "status": "proved",
   "theorems": [
    "Fern.SlopeError.C127_differences",
    "Fern.SlopeError.C127_plane",
    "Fern.SlopeError.C127_slope",
    "Fern.SlopeError.C127_value"
   ],
   "note": "pow and sqrt are parameters, assumed to be accurate to the distance of two numbers; which cells have a value is shown for gradients that are neither very small nor very large"
  },
  {
   "property": "C128",
   "status": "proved",
   "theorems": [
    "Fern.FloatMode.C128_any",
    "Fern.FloatMode.C128_default_false",
    "Fern.FloatMode.C128_mode",
    "Fern.FloatMode.C128_nan",
    "Fern.FloatMode.C128_nan_false",
    "Fern.FloatMode.C128_perm",
    "Fern.FloatMode.C128_size",
    "Fern.FloatMode.C128_unique"
   ],
   "note": "NaN and default constructed accumulators are part of the statement"
  },
  {
   "property": "C129",
   "status": "proved",
   "theorems": [
    "Fern.IntUnary.C129_absolute_0d",
    "Fern.IntUnary.C129_absolute_1d",
    "Fern.IntUnary.C129_absolute_2d",
    "Fern.IntUnary.C129_factorial_0d",
    "Fern.IntUnary.C129_factorial_1d",
    "Fern.IntUnary.C129_factorial_2d",
    "Fern.IntUnary.C129_negative_false",
    "Fern.IntUnary.C129_range_policy",
    "Fern.IntUnary.C129_sizes"
   ],
   "note": "the undefined cases are part of the statement; the gamma function of the standard library is a parameter that is assumed to be accurate"
  },
  {
   "property": "C130",
   "status": "proved",
   "theorems": [
    "Fern.Errno.C130_before_false",
    "Fern.Errno.C130_inherited",
    "Fern.Errno.C130_pow",
    "Fern.Errno.C130_reset",
    "Fern.Errno.C130_reset_unique",
    "Fern.Errno.C130_schedule_false",
    "Fern.Errno.C130_sticky",
    "Fern.Errno.C130_tgamma"
   ],
   "note": "the failures of the policy are part of the statement; what the mathematical library reports is a parameter"
  },
  {
   "property": "C131",
   "status": "proved",
   "theorems": [
    "Fern.Library.C131_accepted",
    "Fern.Library.C131_executed",
    "Fern.Library.C131_known",
    "Fern.Library.C131_magnitudes",
    "Fern.Library.C131_operators",
    "Fern.Library.C131_order",
    "Fern.Library.C131_rules",
    "Fern.Library.C131_sum_fails",
    "Fern.Library.C131_sum_stale",
    "Fern.Library.C131_total",
    "Fern.Library.C131_types",
    "Fern.Library.C131_write"
   ],
   "note": "what is wrong with sums is part of the statement; scripts of assignments and expressions without attributes and subscripts; what the operations do when executed is a parameter: that addition has no result, and that the others succeed with results as declared, are hypotheses where they are needed, and C131_magnitudes is about the absolute values of the code"
  },
  {
   "property": "C132",
   "status": "proved",
   "theorems": [
    "Fern.C132_clamp_1d",
    "Fern.C132_clamp_2d",
    "Fern.C132_compress",
    "Fern.C132_convolve",
    "Fern.C132_copy",
    "Fern.C132_cover",
    "Fern.C132_gradient",
    "Fern.C132_if",
    "Fern.C132_if_else_1d",
    "Fern.C132_if_else_2d",
    "Fern.C132_slope"
   ],
   "note": "builds with assertions; elementwise operations with one and two arguments are in C09 and C10"
  }
 ]
}