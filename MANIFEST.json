{
 "claims": [
  {
   "property": "C01",
   "status": "proved",
   "theorems": [
    "FC.C01_get_agrees_with_payload",
    "FC.C01_present",
    "FC.C01_absent"
   ],
   "note": "Size hypotheses. Assume fewer than 2^32 entries: C01_absent, C01_get_agrees_with_payload, C01_present. Entries are counted in an i32; C68 is about what happens beyond."
  },
  {
   "property": "C02",
   "status": "proved",
   "theorems": [
    "FC.C02_u32_construction_total",
    "FC.C02_other_construction_total",
    "FC.C02_u32_set_construction_total",
    "FC.C02_other_set_construction_total"
   ],
   "note": "Size hypotheses. Assume fewer than 2^31 entries: C02_other_construction_total, C02_other_set_construction_total, C02_u32_construction_total, C02_u32_set_construction_total. Entries are counted in an i32; C68 is about what happens beyond."
  },
  {
   "property": "C03",
   "status": "partial",
   "theorems": [
    "FC.C03_string_construction_partial",
    "FC.C03_counterexample",
    "FC.C03_set_counterexample",
    "FC.C03_string_set_construction_partial"
   ],
   "note": "The full statement is false of the code; C03_counterexample and C03_set_counterexample prove the negation with concrete strings. The _partial theorems say exactly for which payloads construction returns. Missing: those payloads for which the code panics or reads out of bounds. Size hypotheses. Assume fewer than 2^31 entries: C03_string_construction_partial, C03_string_set_construction_partial. Entries are counted in an i32; C68 is about what happens beyond."
  },
  {
   "property": "C04",
   "status": "partial",
   "theorems": [
    "FC.C04_otherwise_always_wrong_partial",
    "FC.C04_counterexample",
    "FC.C04_presence_exact_partial",
    "FC.C04_presence_exact_not_u32_partial"
   ],
   "note": "False for u32 payloads with repeats that are judged contiguous (C04_counterexample: keys 0,0,3,3). Proved for every other case; in that case C04_otherwise_always_wrong_partial proves that some absent key is always reported present. Size hypotheses. Assume fewer than 2^32 entries: C04_otherwise_always_wrong_partial, C04_presence_exact_not_u32_partial, C04_presence_exact_partial. Entries are counted in an i32; C68 is about what happens beyond."
  },
  {
   "property": "C05",
   "status": "proved",
   "theorems": [
    "FC.C05_lookups_agree",
    "FC.C05_stored_key"
   ],
   "note": "Size hypotheses. Assume fewer than 2^32 entries: C05_lookups_agree, C05_stored_key. Entries are counted in an i32; C68 is about what happens beyond."
  },
  {
   "property": "C06",
   "status": "proved",
   "theorems": [
    "FC.C06_get_mut"
   ],
   "note": "Size hypotheses. Assume fewer than 2^32 entries: C06_get_mut. Entries are counted in an i32; C68 is about what happens beyond."
  },
  {
   "property": "C07",
   "status": "proved",
   "theorems": [
    "FC.C07_histories_behave_like_a_function"
   ],
   "note": "Size hypotheses. Assume fewer than 2^32 entries: C07_histories_behave_like_a_function. Entries are counted in an i32; C68 is about what happens beyond."
  },
  {
   "property": "C08",
   "status": "proved",
   "theorems": [
    "FC.C08_get_many_mut",
    "FC.C08_some_iff_payload"
   ],
   "note": "Size hypotheses. Assume fewer than 2^32 entries: C08_get_many_mut, C08_some_iff_payload. Entries are counted in an i32; C68 is about what happens beyond."
  },
  {
   "property": "C09",
   "status": "partial",
   "theorems": [
    "FC.C09_counterexample",
    "FC.C09_alias_needs_broken_eq_partial",
    "FC.C09_no_alias_any_hash_partial"
   ],
   "note": "False: a non-transitive Eq makes get_many_mut return two references to one entry (C09_counterexample). Proved: aliasing needs an Eq that answers true for one entry with two unequal probes. Missing: arbitrary Eq."
  },
  {
   "property": "C10",
   "status": "proved",
   "theorems": [
    "FC.C10_common_map_safe",
    "FC.C10_length_map_safe",
    "FC.C10_frozen_map_safe",
    "FC.C10_frozen_set_safe"
   ],
   "note": ""
  },
  {
   "property": "C11",
   "status": "proved",
   "theorems": [
    "FC.C11_map_iteration",
    "FC.C11_keys_after_writes",
    "FC.C11_order_stable",
    "FC.C11_set_iteration"
   ],
   "note": ""
  },
  {
   "property": "C12",
   "status": "proved",
   "theorems": [
    "FC.C12_len"
   ],
   "note": ""
  },
  {
   "property": "C13",
   "status": "proved",
   "theorems": [
    "FC.C13_iter",
    "FC.C13_keys",
    "FC.C13_values",
    "FC.C13_fused"
   ],
   "note": ""
  },
  {
   "property": "C14",
   "status": "partial",
   "theorems": [
    "FC.C14_counterexample",
    "FC.C14_count_exact_iff_fresh_partial",
    "FC.C14_fresh_count_partial"
   ],
   "note": "False after partial consumption (C14_counterexample). Proved: count is right exactly for fresh iterators. Missing: partially consumed iterators."
  },
  {
   "property": "C15",
   "status": "proved",
   "theorems": [
    "FC.C15_eq_iff_same_answers",
    "FC.C15_eq_iff_payload",
    "FC.C15_refl",
    "FC.C15_symm",
    "FC.C15_trans"
   ],
   "note": "Size hypotheses. Assume fewer than 2^32 entries: C15_eq_iff_payload, C15_eq_iff_same_answers, C15_refl, C15_symm, C15_trans. Entries are counted in an i32; C68 is about what happens beyond."
  },
  {
   "property": "C16",
   "status": "partial",
   "theorems": [
    "FC.C16_counterexample",
    "FC.C16_map_symm_partial",
    "FC.C16_map_receiver_distinct_partial",
    "FC.C16_range_counterexample",
    "FC.C16_set_counterexample",
    "FC.C16_set_symm_partial",
    "FC.C16_set_exact_partial",
    "FC.C16_set_receiver_distinct_partial"
   ],
   "note": "False with repeated keys on the left (C16_counterexample, C16_set_counterexample), and with a range map of repeated keys on the right (C16_range_counterexample). Proved: when the left side has distinct keys and the right side is not such a range map; for sets, exactly what a == b says when values repeat. Missing: the false cases. Size hypotheses. Assume fewer than 2^32 entries: C16_map_receiver_distinct_partial, C16_map_symm_partial, C16_set_exact_partial, C16_set_receiver_distinct_partial, C16_set_symm_partial. Entries are counted in an i32; C68 is about what happens beyond."
  },
  {
   "property": "C17",
   "status": "partial",
   "theorems": [
    "FC.C17_right_slice_map_partial",
    "FC.C17_right_slice_set_partial",
    "FC.C17_length_set_partial",
    "FC.C17_left_slice_set_partial",
    "FC.C17_counterexample",
    "FC.C17_counters_counterexample",
    "FC.C17_common_map_partial",
    "FC.C17_integer_map_partial",
    "FC.C17_length_map_partial",
    "FC.C17_left_slice_map_partial",
    "FC.C17_common_set_partial",
    "FC.C17_integer_set_partial",
    "FC.C17_facade_partial",
    "FC.C17_facade_string_partial",
    "FC.C17_facade_u32_partial",
    "FC.C17_facade_set_string_partial",
    "FC.C17_facade_set_u32_partial",
    "FC.C17_facade_set_partial"
   ],
   "note": "False for S = u128, whose maximum does not fit usize so that every non-empty payload panics (C17_counterexample), and for S whose maximum is 2^31 or more, because entries are counted in an i32 (C17_counters_counterexample; C68). Proved, as an exact iff, for every other S, and up to 2^31-1 entries for all S whose maximum fits usize. Missing: the false cases; FrozenMap with 2^31 entries or more. Size hypotheses. Assume fewer than 2^31 entries: C17_facade_partial, C17_facade_set_partial, C17_facade_set_string_partial, C17_facade_set_u32_partial, C17_facade_string_partial, C17_facade_u32_partial; assume an index type whose maximum fits usize and at most min(S::MAX, i32::MAX) entries: C17_common_map_partial, C17_common_set_partial, C17_integer_map_partial, C17_integer_set_partial, C17_left_slice_map_partial, C17_left_slice_set_partial, C17_length_map_partial, C17_length_set_partial, C17_right_slice_map_partial, C17_right_slice_set_partial. Entries are counted in an i32; C68 is about what happens beyond."
  },
  {
   "property": "C18",
   "status": "proved",
   "theorems": [
    "FC.C18_bounds"
   ],
   "note": ""
  },
  {
   "property": "C19",
   "status": "proved",
   "theorems": [
    "FC.C19_collisions_true",
    "FC.C19_exact_or_good",
    "FC.C19_perfect"
   ],
   "note": ""
  },
  {
   "property": "C20",
   "status": "proved",
   "theorems": [
    "FC.C20_common_map",
    "FC.C20_integer_map",
    "FC.C20_length_map",
    "FC.C20_left_slice_map",
    "FC.C20_scanning_map",
    "FC.C20_answer_depends_on_few_keys",
    "FC.C20_frozen_map",
    "FC.C20_right_slice_map",
    "FC.C20_common_set",
    "FC.C20_integer_set",
    "FC.C20_length_set",
    "FC.C20_left_slice_set",
    "FC.C20_right_slice_set",
    "FC.C20_frozen_set"
   ],
   "note": "Size hypotheses. Assume fewer than 2^32 entries: C20_answer_depends_on_few_keys, C20_common_map, C20_common_set, C20_frozen_map, C20_frozen_set, C20_integer_map, C20_integer_set, C20_length_map, C20_length_set; assume an index type whose maximum fits usize and at most min(S::MAX, i32::MAX) entries: C20_left_slice_map, C20_left_slice_set, C20_right_slice_map, C20_right_slice_set. Entries are counted in an i32; C68 is about what happens beyond."
  },
  {
   "property": "C21",
   "status": "proved",
   "theorems": [
    "FC.C21_range_iff",
    "FC.C21_unsigned",
    "FC.C21_full_domain_counterexample"
   ],
   "note": "Proved as stated (count and span fit the type). C21_full_domain_counterexample shows why that condition is there."
  },
  {
   "property": "C22",
   "status": "partial",
   "theorems": [
    "FC.C22_counterexample",
    "FC.C22_overflow_iff_partial",
    "FC.C22_unchecked_partial"
   ],
   "note": "False for wide spans and full domains (C22_counterexample). Proved: exactly when the analysis overflows. Missing: those inputs."
  },
  {
   "property": "C23",
   "status": "proved",
   "theorems": [
    "FC.C23_lookup"
   ],
   "note": ""
  },
  {
   "property": "C24",
   "status": "partial",
   "theorems": [
    "FC.C24_counterexample",
    "FC.C24_wide_counterexample",
    "FC.C24_panics_iff",
    "FC.C24_distinct_partial"
   ],
   "note": "False both ways (C24_counterexample: repeats hide a gap; C24_wide_counterexample: a contiguous i8 domain is refused). Proved for distinct keys with a span the type can hold. Missing: the rest."
  },
  {
   "property": "C25",
   "status": "partial",
   "theorems": [
    "FC.C25_counterexample",
    "FC.C25_right_slice_counterexample",
    "FC.C25_range_partial",
    "FC.C25_range_set_partial",
    "FC.C25_scanning",
    "FC.C25_common",
    "FC.C25_integer",
    "FC.C25_length",
    "FC.C25_left_slice_counterexample",
    "FC.C25_left_slice_partial",
    "FC.C25_right_slice_partial",
    "FC.C25_scanning_set",
    "FC.C25_common_set",
    "FC.C25_integer_set",
    "FC.C25_length_set",
    "FC.C25_left_slice_set_partial",
    "FC.C25_right_slice_set_partial",
    "FC.C25_frozen_map",
    "FC.C25_frozen_set"
   ],
   "note": "False for the empty IntegerRangeMap and IntegerRangeSet probed with 0, for empty right-slice maps over an ascending range and for empty left-slice maps over an inverted range, the latter two for probes that reach into the range (counterexamples). Proved for all other types and probes. Missing: these."
  },
  {
   "property": "C26",
   "status": "proved",
   "theorems": [
    "FC.C26_length_iff",
    "FC.C26_left_justified",
    "FC.C26_normal_justified",
    "FC.C26_right_justified"
   ],
   "note": ""
  },
  {
   "property": "C27",
   "status": "partial",
   "theorems": [
    "FC.C27_no_panic_partial",
    "FC.C27_counterexample",
    "FC.C27_empty"
   ],
   "note": "False (C27_counterexample, for every hasher). Proved: exactly when it panics. Missing: those inputs."
  },
  {
   "property": "C28",
   "status": "proved",
   "theorems": [
    "FC.C28_lookup",
    "FC.C28_construction_ub_iff"
   ],
   "note": "Size hypotheses. Assume an index type whose maximum fits usize and at most min(S::MAX, i32::MAX) entries: C28_construction_ub_iff, C28_lookup. Entries are counted in an i32; C68 is about what happens beyond."
  },
  {
   "property": "C29",
   "status": "partial",
   "theorems": [
    "FC.C29_counterexample",
    "FC.C29_never_constructed_counterexample",
    "FC.C29_descending_partial",
    "FC.C29_built_iff_partial",
    "FC.C29_built_partial"
   ],
   "note": "False: with start < end construction is undefined behaviour for every non-empty payload (counterexamples). Proved: exactly the ranges in descending order inside every key can be built (all others read out of bounds, or panic in checked builds), and every map built from something answers every probe correctly. Missing: ascending ranges, where the code does not work. Size hypotheses. Assume fewer than 2^32 entries: C29_built_partial; assume an index type whose maximum fits usize and at most min(S::MAX, i32::MAX) entries: C29_built_iff_partial, C29_descending_partial. Entries are counted in an i32; C68 is about what happens beyond."
  },
  {
   "property": "C30",
   "status": "proved",
   "theorems": [
    "FC.C30_scanning_map",
    "FC.C30_common_map",
    "FC.C30_integer_map",
    "FC.C30_length_map"
   ],
   "note": "Size hypotheses. Assume fewer than 2^32 entries: C30_common_map, C30_integer_map, C30_length_map. Entries are counted in an i32; C68 is about what happens beyond."
  },
  {
   "property": "C31",
   "status": "proved",
   "theorems": [
    "FC.C31_iteration",
    "FC.C31_contains",
    "FC.C31_get",
    "FC.C31_len"
   ],
   "note": "Size hypotheses. Assume fewer than 2^32 entries: C31_contains, C31_get. Entries are counted in an i32; C68 is about what happens beyond."
  },
  {
   "property": "C32",
   "status": "proved",
   "theorems": [
    "FC.C32_union",
    "FC.C32_union_frozen"
   ],
   "note": "Size hypotheses. Assume fewer than 2^32 entries: C32_union_frozen. Entries are counted in an i32; C68 is about what happens beyond."
  },
  {
   "property": "C33",
   "status": "proved",
   "theorems": [
    "FC.C33_intersection",
    "FC.C33_difference",
    "FC.C33_symmetric_difference"
   ],
   "note": ""
  },
  {
   "property": "C34",
   "status": "proved",
   "theorems": [
    "FC.C34_bit_or",
    "FC.C34_bit_and",
    "FC.C34_bit_xor",
    "FC.C34_sub"
   ],
   "note": ""
  },
  {
   "property": "C35",
   "status": "proved",
   "theorems": [
    "FC.C35_is_disjoint",
    "FC.C35_is_subset",
    "FC.C35_is_superset"
   ],
   "note": ""
  },
  {
   "property": "C36",
   "status": "partial",
   "theorems": [
    "FC.C36_counterexample",
    "FC.C36_subset_partial",
    "FC.C36_subset_receiver_distinct_partial"
   ],
   "note": "False with repeated values (C36_counterexample). Proved when the receiver has no repeats. Missing: repeats in the receiver. Size hypotheses. Assume fewer than 2^32 entries: C36_subset_partial, C36_subset_receiver_distinct_partial. Entries are counted in an i32; C68 is about what happens beyond."
  },
  {
   "property": "C37",
   "status": "proved",
   "theorems": [
    "FC.C37_eq_iff",
    "FC.C37_refl",
    "FC.C37_symm",
    "FC.C37_trans",
    "FC.C37_frozen_set_eq"
   ],
   "note": "Size hypotheses. Assume fewer than 2^32 entries: C37_frozen_set_eq. Entries are counted in an i32; C68 is about what happens beyond."
  },
  {
   "property": "C38",
   "status": "partial",
   "theorems": [
    "FC.C38_counterexample",
    "FC.C38_union_partial",
    "FC.C38_intersection",
    "FC.C38_difference",
    "FC.C38_symmetric_difference"
   ],
   "note": "False for a partially consumed Union (C38_counterexample). Proved for a fresh Union and for the other iterators at every point. Missing: lower bound of a consumed Union."
  },
  {
   "property": "C39",
   "status": "proved",
   "theorems": [
    "FC.C39_fused"
   ],
   "note": ""
  },
  {
   "property": "C40",
   "status": "proved",
   "theorems": [
    "FC.C40_index",
    "FC.C40_index_panics_iff"
   ],
   "note": "Size hypotheses. Assume fewer than 2^32 entries: C40_index, C40_index_panics_iff. Entries are counted in an i32; C68 is about what happens beyond."
  },
  {
   "property": "C41",
   "status": "proved",
   "theorems": [
    "FC.C41_compare_equal",
    "FC.C41_content_independent"
   ],
   "note": "Size hypotheses. Assume fewer than 2^32 entries: C41_compare_equal, C41_content_independent. Entries are counted in an i32; C68 is about what happens beyond."
  },
  {
   "property": "C42",
   "status": "partial",
   "theorems": [
    "FC.C42_counterexample",
    "FC.C42_right_never_works_partial",
    "FC.C42_finds_listed_keys_partial"
   ],
   "note": "False for string keys judged for right slices (C42_counterexample: the expansion is undefined behaviour at run time; C42_right_never_works_partial: always). Proved for every other verdict. Missing: right slices. Size hypotheses. Assume fewer than 2^31 entries: C42_finds_listed_keys_partial. Entries are counted in an i32; C68 is about what happens beyond."
  },
  {
   "property": "C43",
   "status": "partial",
   "theorems": [
    "FC.C43_counterexample",
    "FC.C43_arity_partial",
    "FC.C43_affected_iff_partial"
   ],
   "note": "False for three or more contiguous integer keys: the expansion names IntegerRangeMap with three type arguments instead of two (C43_counterexample). Proved: exactly which expansions are affected. Missing: those."
  },
  {
   "property": "C44",
   "status": "proved",
   "theorems": [
    "FC.C44_consuming_histories",
    "FC.C44_scanning_consuming_histories",
    "FC.C44_scanning_set",
    "FC.C44_common_set",
    "FC.C44_integer_set",
    "FC.C44_length_set",
    "FC.C44_left_slice_set",
    "FC.C44_right_slice_set",
    "FC.C44_integer_range_set"
   ],
   "note": ""
  },
  {
   "property": "C45",
   "status": "proved",
   "theorems": [
    "FC.C45_is_prime_exact",
    "FC.C45_any_limit",
    "FC.C45_search",
    "FC.C45_big_sizes_prime",
    "FC.C45_medium_sizes_prime"
   ],
   "note": ""
  },
  {
   "property": "C46",
   "status": "proved",
   "theorems": [
    "FC.C46_iter",
    "FC.C46_frozen_set",
    "FC.C46_scanning_set",
    "FC.C46_common_set",
    "FC.C46_integer_set",
    "FC.C46_length_set",
    "FC.C46_left_slice_set",
    "FC.C46_right_slice_set",
    "FC.C46_integer_range_set"
   ],
   "note": ""
  },
  {
   "property": "C47",
   "status": "proved",
   "theorems": [
    "FC.C47_frozen_set",
    "FC.C47_scanning_set",
    "FC.C47_common_set",
    "FC.C47_integer_set",
    "FC.C47_length_set",
    "FC.C47_left_slice_set",
    "FC.C47_right_slice_set",
    "FC.C47_integer_range_set",
    "FC.C47_hash_set",
    "FC.C47_std_set"
   ],
   "note": "Size hypotheses. Assume fewer than 2^32 entries: C47_frozen_set; assume an index type whose maximum fits usize and at most min(S::MAX, i32::MAX) entries: C47_common_set, C47_integer_set, C47_left_slice_set, C47_length_set, C47_right_slice_set. Entries are counted in an i32; C68 is about what happens beyond."
  },
  {
   "property": "C48",
   "status": "proved",
   "theorems": [
    "FC.C48_least_size"
   ],
   "note": ""
  },
  {
   "property": "C49",
   "status": "proved",
   "theorems": [
    "FC.C49_scanning_map",
    "FC.C49_common_map",
    "FC.C49_integer_map",
    "FC.C49_length_map",
    "FC.C49_left_slice_map",
    "FC.C49_right_slice_map",
    "FC.C49_range_map"
   ],
   "note": "Size hypotheses. Assume fewer than 2^32 entries: C49_common_map, C49_integer_map, C49_left_slice_map, C49_length_map, C49_right_slice_map. Entries are counted in an i32; C68 is about what happens beyond."
  },
  {
   "property": "C50",
   "status": "proved",
   "theorems": [
    "FC.C50_frozen_map"
   ],
   "note": "Size hypotheses. Assume fewer than 2^32 entries: C50_frozen_map. Entries are counted in an i32; C68 is about what happens beyond."
  },
  {
   "property": "C51",
   "status": "proved",
   "theorems": [
    "FC.C51_scanning_map",
    "FC.C51_common_map",
    "FC.C51_integer_map",
    "FC.C51_length_map",
    "FC.C51_left_slice_map",
    "FC.C51_right_slice_map",
    "FC.C51_empty_range_map",
    "FC.C51_empty_left_slice_map",
    "FC.C51_empty_right_slice_map",
    "FC.C51_range_map",
    "FC.C51_frozen_map"
   ],
   "note": "Size hypotheses. Assume fewer than 2^32 entries: C51_common_map, C51_frozen_map, C51_integer_map, C51_left_slice_map, C51_length_map, C51_right_slice_map. Entries are counted in an i32; C68 is about what happens beyond."
  },
  {
   "property": "C52",
   "status": "proved",
   "theorems": [
    "FC.C52_small",
    "FC.C52_medium",
    "FC.C52_large",
    "FC.C52_large_unique",
    "FC.C52_eight"
   ],
   "note": ""
  },
  {
   "property": "C53",
   "status": "proved",
   "theorems": [
    "FC.C53_tolerance",
    "FC.C53_subslices",
    "FC.C53_is_prime",
    "FC.C53_is_prime_same"
   ],
   "note": ""
  },
  {
   "property": "C54",
   "status": "proved",
   "theorems": [
    "FC.C54_predicates",
    "FC.C54_operators",
    "FC.C54_expressions"
   ],
   "note": ""
  },
  {
   "property": "C55",
   "status": "proved",
   "theorems": [
    "FC.C55_scanning_map",
    "FC.C55_common_map",
    "FC.C55_integer_map",
    "FC.C55_length_map",
    "FC.C55_left_slice_map",
    "FC.C55_right_slice_map",
    "FC.C55_range_map",
    "FC.C55_frozen_map",
    "FC.C55_frozen_map_eq",
    "FC.C55_range_repeats",
    "FC.C55_u32_repeats"
   ],
   "note": "Size hypotheses. Assume fewer than 2^32 entries: C55_common_map, C55_frozen_map, C55_frozen_map_eq, C55_integer_map, C55_left_slice_map, C55_length_map, C55_right_slice_map, C55_u32_repeats. Entries are counted in an i32; C68 is about what happens beyond."
  },
  {
   "property": "C56",
   "status": "proved",
   "theorems": [
    "FC.C56_frozen_map",
    "FC.C56_scanning_map",
    "FC.C56_common_map",
    "FC.C56_length_map",
    "FC.C56_left_slice_map",
    "FC.C56_right_slice_map",
    "FC.C56_eq",
    "FC.C56_eq_scanning",
    "FC.C56_eq_hashed"
   ],
   "note": "Size hypotheses. Assume that panics are allowed from 2^31 entries on (or beyond what S can count): C56_common_map, C56_eq, C56_eq_hashed, C56_frozen_map, C56_left_slice_map, C56_length_map, C56_right_slice_map. Entries are counted in an i32; C68 is about what happens beyond."
  },
  {
   "property": "C57",
   "status": "partial",
   "theorems": [
    "FC.C57_scanning_map",
    "FC.C57_common_map",
    "FC.C57_integer_map",
    "FC.C57_length_map",
    "FC.C57_left_slice_map",
    "FC.C57_right_slice_map",
    "FC.C57_range_map",
    "FC.C57_frozen_map",
    "FC.C57_iter",
    "FC.C57_keys",
    "FC.C57_values",
    "FC.C57_set_iter",
    "FC.C57_set_into_iter",
    "FC.C57_set_operations",
    "FC.C57_scanning_set",
    "FC.C57_common_set_partial",
    "FC.C57_integer_set",
    "FC.C57_length_set",
    "FC.C57_left_slice_set",
    "FC.C57_right_slice_set",
    "FC.C57_integer_range_set",
    "FC.C57_one_notation_counterexample"
   ],
   "note": "False as to one notation for all sets (C57_one_notation_counterexample: the elements 1, 2, 3 print as {1: (), 2: (), 3: ()} from a ScanningSet and as [1, 3, 2] from a CommonSet). Proved: everything else, for every specialized set; FrozenSet has no Debug (it is commented out in the code). Missing: one notation. Size hypotheses. Assume fewer than 2^32 entries: C57_frozen_map. Entries are counted in an i32; C68 is about what happens beyond."
  },
  {
   "property": "C58",
   "status": "proved",
   "theorems": [
    "FC.C58_scanning_map",
    "FC.C58_common_map",
    "FC.C58_integer_map",
    "FC.C58_length_map",
    "FC.C58_left_slice_map",
    "FC.C58_right_slice_map",
    "FC.C58_range_map",
    "FC.C58_frozen_map",
    "FC.C58_frozen_map_alike",
    "FC.C58_frozen_set",
    "FC.C58_scanning_set",
    "FC.C58_common_set",
    "FC.C58_length_set",
    "FC.C58_integer_and_slice_sets",
    "FC.C58_misbehaving",
    "FC.C58_misbehaving_scanning",
    "FC.C58_misbehaving_hashed"
   ],
   "note": "Size hypotheses. Assume fewer than 2^32 entries: C58_common_map, C58_frozen_map, C58_integer_map, C58_left_slice_map, C58_length_map, C58_right_slice_map; assume that panics are allowed from 2^31 entries on (or beyond what S can count): C58_misbehaving, C58_misbehaving_hashed. Entries are counted in an i32; C68 is about what happens beyond."
  },
  {
   "property": "C59",
   "status": "proved",
   "theorems": [
    "FC.C59_union",
    "FC.C59_intersection",
    "FC.C59_difference",
    "FC.C59_symmetric_difference",
    "FC.C59_fused",
    "FC.C59_fused_intersection",
    "FC.C59_predicates",
    "FC.C59_frozen_sets"
   ],
   "note": "Size hypotheses. Assume that panics are allowed from 2^31 entries on (or beyond what S can count): C59_frozen_sets. Entries are counted in an i32; C68 is about what happens beyond."
  },
  {
   "property": "C60",
   "status": "proved",
   "theorems": [
    "FC.C60_reads_what_is_written",
    "FC.C60_accounts_for_every_token",
    "FC.C60_key_classes",
    "FC.C60_integer_keys",
    "FC.C60_string_keys",
    "FC.C60_expansion",
    "FC.C60_from_tokens_to_lookups"
   ],
   "note": "Size hypotheses. Assume fewer than 2^31 entries: C60_from_tokens_to_lookups. Entries are counted in an i32; C68 is about what happens beyond."
  },
  {
   "property": "C61",
   "status": "proved",
   "theorems": [
    "FC.C61_verdict_exact",
    "FC.C61_rules_decide",
    "FC.C61_order_irrelevant",
    "FC.C61_construction_order_irrelevant"
   ],
   "note": "Size hypotheses. Assume fewer than 2^31 entries: C61_construction_order_irrelevant. Entries are counted in an i32; C68 is about what happens beyond."
  },
  {
   "property": "C62",
   "status": "proved",
   "theorems": [
    "FC.C62_equal_values_equal_lengths",
    "FC.C62_c_string_length",
    "FC.C62_borrowed",
    "FC.C62_length_map",
    "FC.C62_length_set"
   ],
   "note": "Size hypotheses. Assume an index type whose maximum fits usize and at most min(S::MAX, i32::MAX) entries: C62_length_map, C62_length_set. Entries are counted in an i32; C68 is about what happens beyond."
  },
  {
   "property": "C63",
   "status": "proved",
   "theorems": [
    "FC.C63_scanning_map",
    "FC.C63_common_map",
    "FC.C63_integer_map",
    "FC.C63_length_map",
    "FC.C63_left_slice_map",
    "FC.C63_right_slice_map",
    "FC.C63_range_map",
    "FC.C63_scanning_set",
    "FC.C63_common_set",
    "FC.C63_integer_set",
    "FC.C63_length_set",
    "FC.C63_left_slice_set",
    "FC.C63_right_slice_set",
    "FC.C63_range_set",
    "FC.C63_frozen_map_same",
    "FC.C63_frozen_set_same",
    "FC.C63_frozen_map",
    "FC.C63_frozen_set"
   ],
   "note": "Size hypotheses. Assume fewer than 2^32 entries: C63_frozen_map, C63_frozen_set. Entries are counted in an i32; C68 is about what happens beyond."
  },
  {
   "property": "C64",
   "status": "proved",
   "theorems": [
    "FC.C64_string_map",
    "FC.C64_function_hasher"
   ],
   "note": "Size hypotheses. Assume that panics are allowed from 2^31 entries on (or beyond what S can count): C64_string_map. Entries are counted in an i32; C68 is about what happens beyond."
  },
  {
   "property": "C65",
   "status": "proved",
   "theorems": [
    "FC.C65_hashed_map",
    "FC.C65_scanning_map",
    "FC.C65_frozen_map",
    "FC.C65_stored_keys_never_hashed",
    "FC.C65_log_changes_nothing",
    "FC.C65_log_changes_nothing_hashed",
    "FC.C65_eq",
    "FC.C65_eq_true",
    "FC.C65_eq_log_changes_nothing"
   ],
   "note": "Size hypotheses. Assume fewer than 2^32 entries: C65_eq, C65_frozen_map, C65_hashed_map. Entries are counted in an i32; C68 is about what happens beyond."
  },
  {
   "property": "C66",
   "status": "proved",
   "theorems": [
    "FC.C66_analysis",
    "FC.C66_no_overflow",
    "FC.C66_common_map",
    "FC.C66_integer_map",
    "FC.C66_length_map",
    "FC.C66_left_slice_map",
    "FC.C66_right_slice_map",
    "FC.C66_frozen_map"
   ],
   "note": ""
  },
  {
   "property": "C67",
   "status": "proved",
   "theorems": [
    "FC.C67_string_map",
    "FC.C67_building_is_linear",
    "FC.C67_lookup_hashes_once",
    "FC.C67_log_changes_nothing"
   ],
   "note": ""
  },
  {
   "property": "C68",
   "status": "partial",
   "theorems": [
    "FC.C68_common_map_partial",
    "FC.C68_length_map_partial",
    "FC.C68_integer_map_partial",
    "FC.C68_left_slice_map_partial",
    "FC.C68_frozen_map_partial",
    "FC.C68_counterexample",
    "FC.C68_common_set_partial",
    "FC.C68_integer_set_partial",
    "FC.C68_length_set_partial",
    "FC.C68_left_slice_set_partial",
    "FC.C68_frozen_set_partial",
    "FC.C68_frozen_map_strings_partial",
    "FC.C68_frozen_set_strings_partial",
    "FC.C68_frozen_map_u32_partial",
    "FC.C68_frozen_set_u32_partial",
    "FC.C68_right_slice_map_partial",
    "FC.C68_right_slice_set_partial"
   ],
   "note": "False: entries are counted in an i32. Construction may panic from 2^31 entries on (C17_counters_counterexample: always, in checked builds) and without overflow checks a map of 2^32 keys in one slot finds none of them (C68_counterexample). Proved: at any size a map that is built has all entries and is memory safe, lookups return only matching stored entries, and below 2^32 entries they are exact; likewise sets; FrozenMap and FrozenSet over distinct u32s and over types of the caller's own, and FrozenMaps and FrozenSets of strings once built (which strings can be built is C03). Missing: exact lookups from 2^32 entries on."
  },
  {
   "property": "C69",
   "status": "proved",
   "theorems": [
    "FC.C69_trial_tables",
    "FC.C69_linear",
    "FC.C69_every_code_counted",
    "FC.C69_no_prime_search",
    "FC.C69_prime_search",
    "FC.C69_divisions_exact",
    "FC.C69_prime_is_near"
   ],
   "note": ""
  },
  {
   "property": "C70",
   "status": "partial",
   "theorems": [
    "FC.C70_operations",
    "FC.C70_operation_bound",
    "FC.C70_predicates",
    "FC.C70_predicate_bound_partial",
    "FC.C70_counterexample",
    "FC.C70_frozen_sets",
    "FC.C70_frozen_set_predicates",
    "FC.C70_hash_calls",
    "FC.C70_log_changes_nothing",
    "FC.C70_log_changes_nothing_frozen_sets"
   ],
   "note": "False for is_disjoint, which compares the first length with itself and so goes through the first set however small the second is (C70_counterexample). Proved: the exact tests of all four operations and of all predicates, hence the bounds for all but is_disjoint, whose bound is the size of the first set. Size hypotheses. Assume fewer than 2^32 entries: C70_frozen_set_predicates, C70_frozen_sets. Entries are counted in an i32; C68 is about what happens beyond."
  },
  {
   "property": "C71",
   "status": "proved",
   "theorems": [
    "FC.C71_frozen_set",
    "FC.C71_scanning_set",
    "FC.C71_hashed_set",
    "FC.C71_calls",
    "FC.C71_log_changes_nothing",
    "FC.C71_string_set",
    "FC.C71_function_hasher",
    "FC.C71_string_hashing",
    "FC.C71_string_log_changes_nothing",
    "FC.C71_string_operations",
    "FC.C71_string_predicates"
   ],
   "note": "Size hypotheses. Assume fewer than 2^32 entries: C71_calls; assume that panics are allowed from 2^31 entries on (or beyond what S can count): C71_frozen_set, C71_hashed_set, C71_string_operations, C71_string_predicates, C71_string_set. Entries are counted in an i32; C68 is about what happens beyond."
  },
  {
   "property": "C72",
   "status": "proved",
   "theorems": [
    "FC.C72_right_slice_map",
    "FC.C72_set_same_answers",
    "FC.C72_common_set",
    "FC.C72_integer_set",
    "FC.C72_length_set",
    "FC.C72_left_slice_set",
    "FC.C72_right_slice_set",
    "FC.C72_scanning_set",
    "FC.C72_frozen_set",
    "FC.C72_frozen_set_range",
    "FC.C72_frozen_set_small",
    "FC.C72_common_map",
    "FC.C72_integer_map",
    "FC.C72_length_map",
    "FC.C72_left_slice_map",
    "FC.C72_scanning_map",
    "FC.C72_few_collisions",
    "FC.C72_same_answers",
    "FC.C72_frozen_map",
    "FC.C72_frozen_map_range",
    "FC.C72_frozen_map_small"
   ],
   "note": "Size hypotheses. Assume fewer than 2^32 entries: C72_common_map, C72_common_set, C72_frozen_map, C72_frozen_map_range, C72_frozen_set, C72_frozen_set_range, C72_integer_map, C72_integer_set, C72_left_slice_map, C72_left_slice_set, C72_length_map, C72_length_set, C72_right_slice_map, C72_right_slice_set. Entries are counted in an i32; C68 is about what happens beyond."
  },
  {
   "property": "C73",
   "status": "partial",
   "theorems": [
    "FC.C73_counterexample",
    "FC.C73_transitivity_counterexample",
    "FC.C73_scanning_map_partial",
    "FC.C73_common_map_partial",
    "FC.C73_integer_map_partial",
    "FC.C73_length_map_partial",
    "FC.C73_left_slice_map_partial",
    "FC.C73_right_slice_map_partial",
    "FC.C73_range_map_partial",
    "FC.C73_frozen_map_partial",
    "FC.C73_distinct_partial",
    "FC.C73_u32_repeats_partial",
    "FC.C73_frozen_set_partial",
    "FC.C73_frozen_set_transitive_partial",
    "FC.C73_set_transitivity_counterexample",
    "FC.C73_sets_partial"
   ],
   "note": "False: a map with a repeated key and two different values does not equal itself (C73_counterexample), and equality does not carry over a u32 map or set of repeated keys that is judged contiguous (C73_transitivity_counterexample, C73_set_transitivity_counterexample). Proved: after any history a map equals itself exactly if pairs with equal keys have equal values (so always with distinct keys); every FrozenSet equals itself; equality carries over in all types except through integer ranges with repeats. Missing: the false cases (what == answers there, and on range maps and sets built directly from repeated keys, is C77). Size hypotheses. Assume fewer than 2^32 entries: C73_common_map_partial, C73_distinct_partial, C73_frozen_map_partial, C73_frozen_set_partial, C73_frozen_set_transitive_partial, C73_integer_map_partial, C73_left_slice_map_partial, C73_length_map_partial, C73_right_slice_map_partial, C73_u32_repeats_partial. Entries are counted in an i32; C68 is about what happens beyond."
  },
  {
   "property": "C74",
   "status": "proved",
   "theorems": [
    "FC.C74_shows",
    "FC.C74_union",
    "FC.C74_intersection",
    "FC.C74_difference",
    "FC.C74_symmetric_difference",
    "FC.C74_operators",
    "FC.C74_expressions",
    "FC.C74_predicates"
   ],
   "note": ""
  },
  {
   "property": "C75",
   "status": "proved",
   "theorems": [
    "FC.C75_scanning_map",
    "FC.C75_common_map",
    "FC.C75_integer_map",
    "FC.C75_length_map",
    "FC.C75_left_slice_map",
    "FC.C75_right_slice_map",
    "FC.C75_frozen_map",
    "FC.C75_frozen_map_eq",
    "FC.C75_frozen_map_strings"
   ],
   "note": ""
  },
  {
   "property": "C76",
   "status": "partial",
   "theorems": [
    "FC.C76_three_or_more_partial",
    "FC.C76_fewer_than_three_ignores_the_type",
    "FC.C76_counterexample"
   ],
   "note": "False for fewer than three entries: the code then names no key type, so that the type written plays no part (C76_fewer_than_three_ignores_the_type, C76_counterexample: frozen_map!(u8, 300: .., 2: ..) compiles, and &str keys stay &str). Proved for three or more entries. Missing: fewer than three."
  },
  {
   "property": "C77",
   "status": "proved",
   "theorems": [
    "FC.C77_range_map",
    "FC.C77_range_map_eq",
    "FC.C77_range_map_wrong_iff",
    "FC.C77_frozen_map",
    "FC.C77_frozen_map_eq",
    "FC.C77_range_set",
    "FC.C77_range_set_eq",
    "FC.C77_frozen_set"
   ],
   "note": "Size hypotheses. Assume fewer than 2^32 entries: C77_frozen_map, C77_frozen_map_eq, C77_frozen_set. Entries are counted in an i32; C68 is about what happens beyond."
  },
  {
   "property": "C78",
   "status": "partial",
   "theorems": [
    "FC.C78_u32_name",
    "FC.C78_string_name_partial",
    "FC.C78_map_partial",
    "FC.C78_set_partial",
    "FC.C78_dictionary_partial",
    "FC.C78_impostor_undefined",
    "FC.C78_counterexample"
   ],
   "note": "False: types are told apart by std::any::type_name, which does not identify them; a type string::String in a crate of the caller's that is called alloc is taken for the standard library's String, undefined behaviour from four keys on (C78_counterexample, C78_impostor_undefined). Proved for all other types; for u32 there is no exception. Missing: such types. Size hypotheses. Assume fewer than 2^31 entries: C78_dictionary_partial. Entries are counted in an i32; C68 is about what happens beyond."
  },
  {
   "property": "C79",
   "status": "proved",
   "theorems": [
    "FC.C79_scanning_set",
    "FC.C79_common_set",
    "FC.C79_integer_set",
    "FC.C79_length_set",
    "FC.C79_left_slice_set",
    "FC.C79_right_slice_set",
    "FC.C79_frozen_set",
    "FC.C79_frozen_set_operation",
    "FC.C79_frozen_set_predicate",
    "FC.C79_frozen_set_strings",
    "FC.C79_frozen_set_strings_operation",
    "FC.C79_frozen_set_strings_predicate"
   ],
   "note": ""
  },
  {
   "property": "C80",
   "status": "partial",
   "theorems": [
    "FC.C80_index_set_counterexample",
    "FC.C80_index_set_partial",
    "FC.C80_builtin_index_set",
    "FC.C80_range_set",
    "FC.C80_builtin_range_set",
    "FC.C80_index_counterexample",
    "FC.C80_index_partial",
    "FC.C80_builtin_honest",
    "FC.C80_builtin_index",
    "FC.C80_range_counterexample",
    "FC.C80_range_partial",
    "FC.C80_builtin_range"
   ],
   "note": "False: lookups in the hash-based maps trust the positions that the caller's index type counts; a type that lies in any one of zero, max_value, to_usize, from or + makes get read out of bounds (C80_index_counterexample, C80_index_set_counterexample), and integers whose == never holds make get_many_mut of a range map hand out one value twice (C80_range_counterexample). Proved: no undefined behaviour if the index type counts honestly, and none in range maps, whatever the integers answer, except through get_many_mut with such an ==; only given pairs are shown in any case. Range sets have no exception at all (C80_range_set). Missing: the false cases."
  },
  {
   "property": "C81",
   "status": "proved",
   "theorems": [
    "FC.C81_scanning_map",
    "FC.C81_common_map",
    "FC.C81_integer_map",
    "FC.C81_integer_range_map",
    "FC.C81_length_map",
    "FC.C81_left_slice_map",
    "FC.C81_right_slice_map",
    "FC.C81_frozen_map"
   ],
   "note": ""
  },
  {
   "property": "C82",
   "status": "proved",
   "theorems": [
    "FC.C82_common_map",
    "FC.C82_integer_map",
    "FC.C82_length_map",
    "FC.C82_left_slice_map",
    "FC.C82_right_slice_map",
    "FC.C82_common_set",
    "FC.C82_integer_set",
    "FC.C82_length_set",
    "FC.C82_left_slice_set",
    "FC.C82_right_slice_set",
    "FC.C82_frozen_map",
    "FC.C82_frozen_map_bits",
    "FC.C82_frozen_set",
    "FC.C82_frozen_set_bits"
   ],
   "note": ""
  },
  {
   "property": "C83",
   "status": "proved",
   "theorems": [
    "FC.C83_map_iter",
    "FC.C83_map_keys",
    "FC.C83_map_values",
    "FC.C83_frozen_map",
    "FC.C83_set_iter",
    "FC.C83_set_into_iter",
    "FC.C83_frozen_set",
    "FC.C83_union",
    "FC.C83_symmetric_difference",
    "FC.C83_difference",
    "FC.C83_intersection"
   ],
   "note": ""
  },
  {
   "property": "C84",
   "status": "proved",
   "theorems": [
    "FC.C84_common_map",
    "FC.C84_integer_map",
    "FC.C84_length_map",
    "FC.C84_left_slice_map",
    "FC.C84_frozen_map",
    "FC.C84_right_slice_map",
    "FC.C84_common_set",
    "FC.C84_integer_set",
    "FC.C84_length_set",
    "FC.C84_left_slice_set",
    "FC.C84_right_slice_set",
    "FC.C84_frozen_set"
   ],
   "note": "Size hypotheses. Assume fewer than 2^32 entries: C84_common_map, C84_common_set, C84_frozen_map, C84_frozen_set, C84_integer_map, C84_integer_set, C84_left_slice_map, C84_left_slice_set, C84_length_map, C84_length_set, C84_right_slice_map, C84_right_slice_set. Entries are counted in an i32; C68 is about what happens beyond."
  },
  {
   "property": "C85",
   "status": "proved",
   "theorems": [
    "FC.C85_can_be_rebuilt",
    "FC.C85_rebuilt_map",
    "FC.C85_rebuilt_set"
   ],
   "note": "Size hypotheses. Assume fewer than 2^31 entries: C85_can_be_rebuilt; assume fewer than 2^32 entries: C85_rebuilt_map, C85_rebuilt_set. Entries are counted in an i32; C68 is about what happens beyond."
  },
  {
   "property": "C86",
   "status": "proved",
   "theorems": [
    "FC.C86_scanning_set",
    "FC.C86_common_set",
    "FC.C86_integer_set",
    "FC.C86_length_set",
    "FC.C86_left_slice_set",
    "FC.C86_right_slice_set",
    "FC.C86_integer_range_set"
   ],
   "note": "Size hypotheses. Assume fewer than 2^32 entries: C86_common_set, C86_integer_set, C86_length_set; assume an index type whose maximum fits usize and at most min(S::MAX, i32::MAX) entries: C86_left_slice_set, C86_right_slice_set. Entries are counted in an i32; C68 is about what happens beyond."
  },
  {
   "property": "C87",
   "status": "proved",
   "theorems": [
    "FC.C87_one_after_another",
    "FC.C87_map_iter",
    "FC.C87_map_keys",
    "FC.C87_map_values",
    "FC.C87_frozen_map",
    "FC.C87_set_iter",
    "FC.C87_set_into_iter",
    "FC.C87_frozen_set",
    "FC.C87_union",
    "FC.C87_intersection",
    "FC.C87_difference",
    "FC.C87_symmetric_difference"
   ],
   "note": ""
  },
  {
   "property": "C88",
   "status": "partial",
   "theorems": [
    "FC.C88_any_map_partial",
    "FC.C88_scanning_map_partial",
    "FC.C88_common_map_partial",
    "FC.C88_integer_map_partial",
    "FC.C88_length_map_partial",
    "FC.C88_left_slice_map_partial",
    "FC.C88_right_slice_map_partial",
    "FC.C88_range_map_partial",
    "FC.C88_frozen_map_partial",
    "FC.C88_counterexample"
   ],
   "note": "False: get_many_mut makes its mutable references out of shared ones by transmute, so that writing through any of them is undefined behaviour (C88_counterexample). Proved, for every map: a history is defined, and gives what it gives on a list of pairs, exactly if no get_many_mut in it hands out a reference that is written through; everything else (get, get_mut, indexing, iterators) is in order. Missing: get_many_mut. Size hypotheses. Assume fewer than 2^32 entries: C88_common_map_partial, C88_frozen_map_partial, C88_integer_map_partial, C88_left_slice_map_partial, C88_length_map_partial, C88_right_slice_map_partial. Entries are counted in an i32; C68 is about what happens beyond."
  },
  {
   "property": "C89",
   "status": "proved",
   "theorems": [
    "FC.C89_scanning_set",
    "FC.C89_common_set",
    "FC.C89_integer_set",
    "FC.C89_length_set",
    "FC.C89_left_slice_set",
    "FC.C89_right_slice_set",
    "FC.C89_range_set",
    "FC.C89_frozen_set",
    "FC.C89_any_map",
    "FC.C89_safe_map",
    "FC.C89_scanning_map",
    "FC.C89_common_map",
    "FC.C89_integer_map",
    "FC.C89_length_map",
    "FC.C89_left_slice_map",
    "FC.C89_right_slice_map",
    "FC.C89_range_map",
    "FC.C89_frozen_map"
   ],
   "note": "Size hypotheses. Assume fewer than 2^32 entries: C89_common_map, C89_common_set, C89_frozen_map, C89_frozen_set, C89_integer_map, C89_integer_set, C89_left_slice_map, C89_left_slice_set, C89_length_map, C89_length_set, C89_right_slice_map, C89_right_slice_set. Entries are counted in an i32; C68 is about what happens beyond."
  },
  {
   "property": "C90",
   "status": "proved",
   "theorems": [
    "FC.C90_caught_frozen_map",
    "FC.C90_caught_scanning_map",
    "FC.C90_caught_hashed_map",
    "FC.C90_caught_range_map",
    "FC.C90_caught_alive",
    "FC.C90_caught_same",
    "FC.C90_hashed_set_consumed",
    "FC.C90_scanning_set_consumed",
    "FC.C90_while_consumed",
    "FC.C90_stepping_drops_nothing",
    "FC.C90_frozen_map",
    "FC.C90_scanning_map",
    "FC.C90_hashed_map",
    "FC.C90_string_map",
    "FC.C90_frozen_set",
    "FC.C90_clone",
    "FC.C90_construction",
    "FC.C90_string_construction",
    "FC.C90_range_map",
    "FC.C90_range_construction",
    "FC.C90_alive",
    "FC.C90_iterator",
    "FC.C90_log_changes_nothing"
   ],
   "note": "Size hypotheses. Assume that panics are allowed from 2^31 entries on (or beyond what S can count): C90_caught_frozen_map, C90_caught_hashed_map, C90_clone, C90_frozen_map, C90_frozen_set, C90_hashed_map, C90_hashed_set_consumed, C90_string_map. Entries are counted in an i32; C68 is about what happens beyond."
  },
  {
   "property": "C91",
   "status": "proved",
   "theorems": [
    "FC.C91_frozen_map",
    "FC.C91_scanning_map",
    "FC.C91_hashed_map",
    "FC.C91_string_map",
    "FC.C91_frozen_set",
    "FC.C91_alone"
   ],
   "note": "Size hypotheses. Assume that panics are allowed from 2^31 entries on (or beyond what S can count): C91_frozen_map, C91_frozen_set, C91_hashed_map, C91_string_map. Entries are counted in an i32; C68 is about what happens beyond."
  },
  {
   "property": "C92",
   "status": "proved",
   "theorems": [
    "FC.C92_untouched",
    "FC.C92_before_writing",
    "FC.C92_after_writing",
    "FC.C92_scanning_map",
    "FC.C92_frozen_map",
    "FC.C92_hashed_map",
    "FC.C92_string_map",
    "FC.C92_integer_range_map"
   ],
   "note": "Size hypotheses. Assume that panics are allowed from 2^31 entries on (or beyond what S can count): C92_frozen_map, C92_hashed_map, C92_string_map. Entries are counted in an i32; C68 is about what happens beyond."
  },
  {
   "property": "C93",
   "status": "proved",
   "theorems": [
    "FC.C93_scanning_map",
    "FC.C93_frozen_map",
    "FC.C93_hashed_map",
    "FC.C93_string_map",
    "FC.C93_as_if_never_called",
    "FC.C93_determined",
    "FC.C93_integer_range_map",
    "FC.C93_integer_range_map_built"
   ],
   "note": "Size hypotheses. Assume fewer than 2^32 entries: C93_as_if_never_called, C93_frozen_map, C93_hashed_map, C93_integer_range_map, C93_integer_range_map_built, C93_string_map; assume that panics are allowed from 2^31 entries on (or beyond what S can count): C93_as_if_never_called, C93_frozen_map, C93_hashed_map, C93_string_map. Entries are counted in an i32; C68 is about what happens beyond."
  },
  {
   "property": "C94",
   "status": "proved",
   "theorems": [
    "FC.C94_same",
    "FC.C94_union",
    "FC.C94_intersection",
    "FC.C94_difference",
    "FC.C94_symmetric_difference",
    "FC.C94_frozen_sets_any",
    "FC.C94_honest",
    "FC.C94_seen",
    "FC.C94_frozen_sets",
    "FC.C94_string_sets"
   ],
   "note": "Size hypotheses. Assume fewer than 2^32 entries: C94_frozen_sets, C94_string_sets; assume that panics are allowed from 2^31 entries on (or beyond what S can count): C94_frozen_sets, C94_frozen_sets_any, C94_string_sets. Entries are counted in an i32; C68 is about what happens beyond."
  },
  {
   "property": "C95",
   "status": "proved",
   "theorems": [
    "FC.C95_predicates",
    "FC.C95_frozen_sets",
    "FC.C95_string_sets",
    "FC.C95_map_eq"
   ],
   "note": "Size hypotheses. Assume fewer than 2^32 entries: C95_frozen_sets, C95_map_eq, C95_string_sets; assume that panics are allowed from 2^31 entries on (or beyond what S can count): C95_frozen_sets, C95_map_eq, C95_string_sets. Entries are counted in an i32; C68 is about what happens beyond."
  },
  {
   "property": "C96",
   "status": "proved",
   "theorems": [
    "FC.C96_scanning_map",
    "FC.C96_common_map",
    "FC.C96_integer_map",
    "FC.C96_length_map",
    "FC.C96_left_slice_map",
    "FC.C96_right_slice_map",
    "FC.C96_range_map",
    "FC.C96_frozen_map",
    "FC.C96_counters",
    "FC.C96_frozen_counters"
   ],
   "note": "Size hypotheses. Assume fewer than 2^32 entries: C96_common_map, C96_frozen_counters, C96_frozen_map, C96_integer_map, C96_left_slice_map, C96_length_map, C96_right_slice_map. Entries are counted in an i32; C68 is about what happens beyond."
  },
  {
   "property": "C97",
   "status": "partial",
   "theorems": [
    "FC.C97_acts_as_written_partial",
    "FC.C97_from_tokens_partial",
    "FC.C97_counterexample"
   ],
   "note": "False for string keys judged for right slices: no run of the emitted code builds a map (C97_counterexample, C42_right_never_works_partial). Proved for every other verdict, from the entries (C97_acts_as_written_partial) and from the tokens for code that compiles (C97_from_tokens_partial). Missing: right slices. Size hypotheses. Assume fewer than 2^31 entries: C97_acts_as_written_partial, C97_from_tokens_partial. Entries are counted in an i32; C68 is about what happens beyond."
  },
  {
   "property": "C98",
   "status": "proved",
   "theorems": [
    "FC.C98_programs",
    "FC.C98_programs_without_strings",
    "FC.C98_with_panics_caught"
   ],
   "note": "Size hypotheses. Assume fewer than 2^31 entries: C98_programs_without_strings. Entries are counted in an i32; C68 is about what happens beyond."
  },
  {
   "property": "C99",
   "status": "proved",
   "theorems": [
    "FC.C99_same_replies",
    "FC.C99_then_any_action",
    "FC.C99_with_panics_caught",
    "FC.C99_listing_programs",
    "FC.C99_listing_and_catching"
   ],
   "note": ""
  },
  {
   "property": "C100",
   "status": "proved",
   "theorems": [
    "FC.C100_interchangeable",
    "FC.C100_sets",
    "FC.C100_combined_sets"
   ],
   "note": "Size hypotheses. Assume fewer than 2^32 entries: C100_interchangeable. Entries are counted in an i32; C68 is about what happens beyond."
  }
 ]
}