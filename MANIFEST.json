{
 "claims": [
  {
   "property": "C01",
   "status": "proved",
   "theorems": [
    "SegTree.C01_insert",
    "SegTree.C01_insert_rv",
    "SegTree.C01_push_back",
    "SegTree.C01_push_front"
   ],
   "note": ""
  },
  {
   "property": "C02",
   "status": "proved",
   "theorems": [
    "SegTree.C02_erase",
    "SegTree.C02_pop_back",
    "SegTree.C02_pop_front"
   ],
   "note": ""
  },
  {
   "property": "C03",
   "status": "proved",
   "theorems": [
    "SegTree.C03_insert",
    "SegTree.C03_erase"
   ],
   "note": ""
  },
  {
   "property": "C04",
   "status": "proved",
   "theorems": [
    "SegTree.C04_simulation",
    "SegTree.C04_deterministic",
    "SegTree.C04_progress"
   ],
   "note": ""
  },
  {
   "property": "C05",
   "status": "proved",
   "theorems": [
    "SegTree.C05_access",
    "SegTree.C05_holds"
   ],
   "note": ""
  },
  {
   "property": "C06",
   "status": "proved",
   "theorems": [
    "SegTree.C06_at"
   ],
   "note": ""
  },
  {
   "property": "C07",
   "status": "proved",
   "theorems": [
    "SegTree.C07_write"
   ],
   "note": ""
  },
  {
   "property": "C08",
   "status": "proved",
   "theorems": [
    "SegTree.C08_no_ub"
   ],
   "note": "Total correctness: every call within its precondition ends in a normal return or an allowed exception, never undefined behaviour or divergence. Excluded by Good: base_max >= 65536 (C41), throwing element moves (C44). deallocate(nullptr) on empty containers is tolerated only if the allocator does (C45)."
  },
  {
   "property": "C09",
   "status": "proved",
   "theorems": [
    "SegTree.C09_no_leak",
    "SegTree.C09_all_freed"
   ],
   "note": ""
  },
  {
   "property": "C10",
   "status": "proved",
   "theorems": [
    "SegTree.C10_alloc_failure"
   ],
   "note": ""
  },
  {
   "property": "C11",
   "status": "proved",
   "theorems": [
    "SegTree.C11_copy_failure",
    "SegTree.C11_copy_throws"
   ],
   "note": ""
  },
  {
   "property": "C12",
   "status": "proved",
   "theorems": [
    "SegTree.C12_basic",
    "SegTree.C12_insert_fill",
    "SegTree.C12_insert_list"
   ],
   "note": "C12_basic: any throwing call keeps the whole bank of containers representable by lists as specified; C12_insert_fill / C12_insert_list give the prefix."
  },
  {
   "property": "C13",
   "status": "proved",
   "theorems": [
    "SegTree.C13_ctor",
    "SegTree.C13_copy_ctor",
    "SegTree.C13_range_ctor"
   ],
   "note": ""
  },
  {
   "property": "C14",
   "status": "proved",
   "theorems": [
    "SegTree.C14_alloc",
    "SegTree.C14_never",
    "SegTree.C14_quiet",
    "SegTree.C14_endless"
   ],
   "note": ""
  },
  {
   "property": "C15",
   "status": "proved",
   "theorems": [
    "SegTree.C15_requests"
   ],
   "note": ""
  },
  {
   "property": "C16",
   "status": "proved",
   "theorems": [
    "SegTree.C16_empty",
    "SegTree.C16_bounds",
    "SegTree.C16_log"
   ],
   "note": ""
  },
  {
   "property": "C17",
   "status": "proved",
   "theorems": [
    "SegTree.C17_segment",
    "SegTree.C17_node",
    "SegTree.C17_count"
   ],
   "note": ""
  },
  {
   "property": "C18",
   "status": "proved",
   "theorems": [
    "SegTree.C18_next",
    "SegTree.C18_prev",
    "SegTree.C18_inverse",
    "SegTree.C18_ends",
    "SegTree.C18_walk",
    "SegTree.C18_walk_back",
    "SegTree.C18_traverse"
   ],
   "note": ""
  },
  {
   "property": "C19",
   "status": "proved",
   "theorems": [
    "SegTree.C19_add",
    "SegTree.C19_next",
    "SegTree.C19_prev",
    "SegTree.C19_sub",
    "SegTree.C19_index"
   ],
   "note": ""
  },
  {
   "property": "C20",
   "status": "proved",
   "theorems": [
    "SegTree.C20_diff",
    "SegTree.C20_compare",
    "SegTree.C20_identical"
   ],
   "note": ""
  },
  {
   "property": "C21",
   "status": "proved",
   "theorems": [
    "SegTree.C21_reverse",
    "SegTree.C21_deref"
   ],
   "note": ""
  },
  {
   "property": "C22",
   "status": "proved",
   "theorems": [
    "SegTree.C22_block",
    "SegTree.C22_after",
    "SegTree.C22_before",
    "SegTree.C22_traverse"
   ],
   "note": ""
  },
  {
   "property": "C23",
   "status": "proved",
   "theorems": [
    "SegTree.C23_before_count",
    "SegTree.C23_before_count_wrong",
    "SegTree.C23_after_count"
   ],
   "note": "The documented claim about before_segment(count) is refuted: C23_before_count gives its exact behaviour, C23_before_count_wrong shows it is never right."
  },
  {
   "property": "C24",
   "status": "proved",
   "theorems": [
    "SegTree.C24_insert_fill",
    "SegTree.C24_insert_fill_ends"
   ],
   "note": ""
  },
  {
   "property": "C25",
   "status": "proved",
   "theorems": [
    "SegTree.C25_insert_list",
    "SegTree.C25_insert_range"
   ],
   "note": ""
  },
  {
   "property": "C26",
   "status": "proved",
   "theorems": [
    "SegTree.C26_erase_range"
   ],
   "note": ""
  },
  {
   "property": "C27",
   "status": "proved",
   "theorems": [
    "SegTree.C27_assign_fill",
    "SegTree.C27_assign_list",
    "SegTree.C27_assign_range"
   ],
   "note": ""
  },
  {
   "property": "C28",
   "status": "proved",
   "theorems": [
    "SegTree.C28_resize",
    "SegTree.C28_shrink"
   ],
   "note": ""
  },
  {
   "property": "C29",
   "status": "proved",
   "theorems": [
    "SegTree.C29_clear",
    "SegTree.C29_destroy"
   ],
   "note": ""
  },
  {
   "property": "C30",
   "status": "proved",
   "theorems": [
    "SegTree.C30_copy_ctor",
    "SegTree.C30_copy_ctor_alloc",
    "SegTree.C30_copy_assign",
    "SegTree.C30_self",
    "SegTree.C30_independent"
   ],
   "note": ""
  },
  {
   "property": "C31",
   "status": "proved",
   "theorems": [
    "SegTree.C31_move_ctor",
    "SegTree.C31_move_assign",
    "SegTree.C31_move_assign_elems",
    "SegTree.C31_move_ctor_alloc",
    "SegTree.C31_move_trivial"
   ],
   "note": ""
  },
  {
   "property": "C32",
   "status": "proved",
   "theorems": [
    "SegTree.C32_swap",
    "SegTree.C32_self"
   ],
   "note": ""
  },
  {
   "property": "C33",
   "status": "proved",
   "theorems": [
    "SegTree.C33_owner"
   ],
   "note": ""
  },
  {
   "property": "C34",
   "status": "proved",
   "theorems": [
    "SegTree.C34_others",
    "SegTree.C34_memory",
    "SegTree.C34_history"
   ],
   "note": ""
  },
  {
   "property": "C35",
   "status": "proved",
   "theorems": [
    "SegTree.C35_splice",
    "SegTree.C35_splice_one",
    "SegTree.C35_splice_range"
   ],
   "note": ""
  },
  {
   "property": "C36",
   "status": "proved",
   "theorems": [
    "SegTree.C36_merge",
    "SegTree.C36_sorted"
   ],
   "note": "std::inplace_merge is modelled by its contract (reads and writes through the iterators), not by its code."
  },
  {
   "property": "C37",
   "status": "proved",
   "theorems": [
    "SegTree.C37_remove_if",
    "SegTree.C37_remove",
    "SegTree.C37_unique",
    "SegTree.C37_dropDups"
   ],
   "note": ""
  },
  {
   "property": "C38",
   "status": "proved",
   "theorems": [
    "SegTree.C38_reverse",
    "SegTree.C38_sort"
   ],
   "note": "std::reverse is modelled by its reference implementation, std::stable_sort by its contract (reads and writes through the iterators)."
  },
  {
   "property": "C39",
   "status": "proved",
   "theorems": [
    "SegTree.C39_compare",
    "SegTree.C39_meaning"
   ],
   "note": ""
  },
  {
   "property": "C40",
   "status": "proved",
   "theorems": [
    "SegTree.C40_constants",
    "SegTree.C40_segment_bytes",
    "SegTree.C40_node_bytes"
   ],
   "note": ""
  },
  {
   "property": "C41",
   "status": "proved",
   "theorems": [
    "SegTree.C41_overflow",
    "SegTree.C41_fields"
   ],
   "note": "C41_fields is the positive half; C41_overflow exhibits the corruption for every configuration with base_max >= 65536 and segment_max = 1."
  },
  {
   "property": "C42",
   "status": "proved",
   "theorems": [
    "SegTree.C42_fill_alias_wrong",
    "SegTree.C42_fill_alias_ub",
    "SegTree.C42_insert_self"
   ],
   "note": "Positive for single insertion, counterexamples for the fill form."
  },
  {
   "property": "C43",
   "status": "proved",
   "theorems": [
    "SegTree.C43_prefix",
    "SegTree.C43_not_strong"
   ],
   "note": "The documented strong guarantee is refuted; the guarantee that does hold is proved."
  },
  {
   "property": "C44",
   "status": "proved",
   "theorems": [
    "SegTree.C44_insert_not_strong",
    "SegTree.C44_erase_not_strong"
   ],
   "note": "The documented guarantee is refuted by reachable counterexamples; the guarantee for nothrow moves is C10, C11, C14."
  },
  {
   "property": "C45",
   "status": "proved",
   "theorems": [
    "SegTree.C45_clear_null",
    "SegTree.C45_dtor_null",
    "SegTree.C45_move_null",
    "SegTree.C45_nonempty"
   ],
   "note": "Refuted for every empty container, proved for every non-empty one."
  },
  {
   "property": "C46",
   "status": "proved",
   "theorems": [
    "SegTree.C46_sizes",
    "SegTree.C46_max_size",
    "SegTree.C46_root"
   ],
   "note": ""
  },
  {
   "property": "C47",
   "status": "proved",
   "theorems": [
    "SegTree.C47_iterators"
   ],
   "note": ""
  },
  {
   "property": "C48",
   "status": "proved",
   "theorems": [
    "SegTree.C48_blocks"
   ],
   "note": ""
  },
  {
   "property": "C49",
   "status": "proved",
   "theorems": [
    "SegTree.C49_queries",
    "SegTree.C49_whole"
   ],
   "note": ""
  },
  {
   "property": "C50",
   "status": "proved",
   "theorems": [
    "SegTree.C50_access"
   ],
   "note": ""
  },
  {
   "property": "C51",
   "status": "proved",
   "theorems": [
    "SegTree.C51_insert",
    "SegTree.C51_erase"
   ],
   "note": ""
  },
  {
   "property": "C52",
   "status": "proved",
   "theorems": [
    "SegTree.C52_step",
    "SegTree.C52_amortised"
   ],
   "note": "The documentation's 'logarithmic in the distance, amortised' for jumps is proved only as logarithmic in the size (worst case); single steps are proved constant amortised."
  },
  {
   "property": "C53",
   "status": "proved",
   "theorems": [
    "SegTree.C53_destroy"
   ],
   "note": ""
  },
  {
   "property": "C54",
   "status": "proved",
   "theorems": [
    "SegTree.C54_insert",
    "SegTree.C54_erase_resize",
    "SegTree.C54_construct",
    "SegTree.C54_splice"
   ],
   "note": ""
  },
  {
   "property": "C55",
   "status": "proved",
   "theorems": [
    "SegTree.C55_assign",
    "SegTree.C55_assign_whole",
    "SegTree.C55_compare"
   ],
   "note": "Copy assignment that replaces its allocator is covered with its own, weaker bound, which is what the code does."
  },
  {
   "property": "C56",
   "status": "proved",
   "theorems": [
    "SegTree.C56_reverse",
    "SegTree.C56_remove",
    "SegTree.C56_remove_not_logarithmic"
   ],
   "note": "The documented logarithmic bound of remove(value) is refuted; the bound that holds is proved."
  },
  {
   "property": "C57",
   "status": "proved",
   "theorems": [
    "SegTree.C57_container",
    "SegTree.C57_iterators",
    "SegTree.C57_algorithms",
    "SegTree.C57_readers"
   ],
   "note": ""
  },
  {
   "property": "C58",
   "status": "proved",
   "theorems": [
    "SegTree.C58_single",
    "SegTree.C58_bulk",
    "SegTree.C58_write",
    "SegTree.C58_none"
   ],
   "note": ""
  },
  {
   "property": "C59",
   "status": "proved",
   "theorems": [
    "SegTree.C59_first",
    "SegTree.C59_bounded",
    "SegTree.C59_uniform",
    "SegTree.C59_ends",
    "SegTree.C59_range"
   ],
   "note": ""
  },
  {
   "property": "C60",
   "status": "proved",
   "theorems": [
    "SegTree.C60_generate_single",
    "SegTree.C60_generate_range",
    "SegTree.C60_single",
    "SegTree.C60_range",
    "SegTree.C60_program"
   ],
   "note": ""
  },
  {
   "property": "C61",
   "status": "proved",
   "theorems": [
    "SegTree.C61_accumulate",
    "SegTree.C61_accumulate_by",
    "SegTree.C61_zero"
   ],
   "note": ""
  },
  {
   "property": "C62",
   "status": "proved",
   "theorems": [
    "SegTree.C62_guard"
   ],
   "note": ""
  },
  {
   "property": "C63",
   "status": "proved",
   "theorems": [
    "SegTree.C63_algorithm",
    "SegTree.C63_range"
   ],
   "note": ""
  },
  {
   "property": "C64",
   "status": "proved",
   "theorems": [
    "SegTree.C64_whole",
    "SegTree.C64_erase",
    "SegTree.C64_remove_if"
   ],
   "note": ""
  },
  {
   "property": "C65",
   "status": "proved",
   "theorems": [
    "SegTree.C65_push",
    "SegTree.C65_resize",
    "SegTree.C65_assign",
    "SegTree.C65_remove",
    "SegTree.C65_remove_safe",
    "SegTree.C65_assign_range",
    "SegTree.C65_resize_ub",
    "SegTree.C65_assign_ub",
    "SegTree.C65_remove_wrong",
    "SegTree.C65_splice_self",
    "SegTree.C65_merge_self"
   ],
   "note": ""
  },
  {
   "property": "C66",
   "status": "proved",
   "theorems": [
    "SegTree.C66_sources",
    "SegTree.C66_noexcept",
    "SegTree.C66_readers",
    "SegTree.C66_move_pocma",
    "SegTree.C66_move_equal",
    "SegTree.C66_erase",
    "SegTree.C66_insert_rv"
   ],
   "note": ""
  },
  {
   "property": "C67",
   "status": "proved",
   "theorems": [
    "SegTree.C67_insert",
    "SegTree.C67_assign",
    "SegTree.C67_ctor"
   ],
   "note": ""
  },
  {
   "property": "C68",
   "status": "proved",
   "theorems": [
    "SegTree.C68_same",
    "SegTree.C68_reach",
    "SegTree.C68_call",
    "SegTree.C68_returns",
    "SegTree.C68_fails",
    "SegTree.C68_quiet"
   ],
   "note": ""
  },
  {
   "property": "C69",
   "status": "proved",
   "theorems": [
    "SegTree.C69_call",
    "SegTree.C69_returns",
    "SegTree.C69_fails",
    "SegTree.C69_push_back_broken",
    "SegTree.C69_ctor_ub"
   ],
   "note": ""
  },
  {
   "property": "C70",
   "status": "proved",
   "theorems": [
    "SegTree.C70_honest"
   ],
   "note": ""
  },
  {
   "property": "C71",
   "status": "proved",
   "theorems": [
    "SegTree.C71_copyless",
    "SegTree.C71_count"
   ],
   "note": ""
  },
  {
   "property": "C72",
   "status": "proved",
   "theorems": [
    "SegTree.C72_outcome",
    "SegTree.C72_length",
    "SegTree.C72_decided"
   ],
   "note": ""
  },
  {
   "property": "C73",
   "status": "proved",
   "theorems": [
    "SegTree.C73_tuning",
    "SegTree.C73_portable",
    "SegTree.C73_runs"
   ],
   "note": ""
  },
  {
   "property": "C74",
   "status": "proved",
   "theorems": [
    "SegTree.C74_elements",
    "SegTree.C74_distinct",
    "SegTree.C74_only_elements",
    "SegTree.C74_count"
   ],
   "note": ""
  },
  {
   "property": "C75",
   "status": "proved",
   "theorems": [
    "SegTree.C75_algorithm",
    "SegTree.C75_factor",
    "SegTree.C75_whole"
   ],
   "note": ""
  },
  {
   "property": "C76",
   "status": "proved",
   "theorems": [
    "SegTree.C76_dangling",
    "SegTree.C76_end",
    "SegTree.C76_any_iterator"
   ],
   "note": ""
  },
  {
   "property": "C77",
   "status": "proved",
   "theorems": [
    "SegTree.C77_one",
    "SegTree.C77_height",
    "SegTree.C77_many",
    "SegTree.C77_algorithms",
    "SegTree.C77_not_linear",
    "SegTree.C77_no_constant",
    "SegTree.C77_merge"
   ],
   "note": ""
  },
  {
   "property": "C78",
   "status": "proved",
   "theorems": [
    "SegTree.C78_threads",
    "SegTree.C78_ends",
    "SegTree.C78_rights",
    "SegTree.C78_lent",
    "SegTree.C78_join",
    "SegTree.C78_programs"
   ],
   "note": ""
  },
  {
   "property": "C79",
   "status": "proved",
   "theorems": [
    "SegTree.C79_retry",
    "SegTree.C79_ends",
    "SegTree.C79_program",
    "SegTree.C79_builds",
    "SegTree.C79_hopeless"
   ],
   "note": ""
  },
  {
   "property": "C80",
   "status": "proved",
   "theorems": [
    "SegTree.C80_iterator",
    "SegTree.C80_single",
    "SegTree.C80_range",
    "SegTree.C80_generates",
    "SegTree.C80_retry",
    "SegTree.C80_zero",
    "SegTree.C80_whole"
   ],
   "note": ""
  },
  {
   "property": "C81",
   "status": "proved",
   "theorems": [
    "SegTree.C81_requests",
    "SegTree.C81_filling",
    "SegTree.C81_amortised",
    "SegTree.C81_construct",
    "SegTree.C81_copy",
    "SegTree.C81_range",
    "SegTree.C81_quiet"
   ],
   "note": ""
  },
  {
   "property": "C82",
   "status": "proved",
   "theorems": [
    "SegTree.C82_burst",
    "SegTree.C82_detects",
    "SegTree.C82_element",
    "SegTree.C82_leading_zeros"
   ],
   "note": ""
  },
  {
   "property": "C83",
   "status": "proved",
   "theorems": [
    "SegTree.C83_single",
    "SegTree.C83_range",
    "SegTree.C83_notices"
   ],
   "note": ""
  },
  {
   "property": "C84",
   "status": "proved",
   "theorems": [
    "SegTree.C84_find",
    "SegTree.C84_body",
    "SegTree.C84_program"
   ],
   "note": ""
  },
  {
   "property": "C85",
   "status": "proved",
   "theorems": [
    "SegTree.C85_room",
    "SegTree.C85_full",
    "SegTree.C85_first",
    "SegTree.C85_failed"
   ],
   "note": ""
  },
  {
   "property": "C86",
   "status": "proved",
   "theorems": [
    "SegTree.C86_erase",
    "SegTree.C86_room",
    "SegTree.C86_bound"
   ],
   "note": ""
  },
  {
   "property": "C87",
   "status": "proved",
   "theorems": [
    "SegTree.C87_emplace",
    "SegTree.C87_push",
    "SegTree.C87_resize",
    "SegTree.C87_shrink",
    "SegTree.C87_ctor"
   ],
   "note": ""
  },
  {
   "property": "C88",
   "status": "proved",
   "theorems": [
    "SegTree.C88_algorithm",
    "SegTree.C88_whole",
    "SegTree.C88_merge",
    "SegTree.C88_call"
   ],
   "note": ""
  },
  {
   "property": "C89",
   "status": "proved",
   "theorems": [
    "SegTree.C89_append",
    "SegTree.C89_erase",
    "SegTree.C89_pop",
    "SegTree.C89_last",
    "SegTree.C89_borrow",
    "SegTree.C89_call"
   ],
   "note": ""
  },
  {
   "property": "C90",
   "status": "proved",
   "theorems": [
    "SegTree.C90_even",
    "SegTree.C90_odd",
    "SegTree.C90_rounds",
    "SegTree.C90_no_constant"
   ],
   "note": ""
  },
  {
   "property": "C91",
   "status": "proved",
   "theorems": [
    "SegTree.Tests.C91_suite",
    "SegTree.Tests.C91_reliable",
    "SegTree.Tests.C91_order"
   ],
   "note": ""
  },
  {
   "property": "C92",
   "status": "proved",
   "theorems": [
    "SegTree.Prog.C92_step",
    "SegTree.Prog.C92_program",
    "SegTree.Prog.C92_safe",
    "SegTree.Prog.C92_straight",
    "SegTree.C92_erase_loop",
    "SegTree.C92_insert_loop"
   ],
   "note": ""
  },
  {
   "property": "C93",
   "status": "proved",
   "theorems": [
    "SegTree.C93_reverse",
    "SegTree.C93_rotate_any",
    "SegTree.C93_rotate",
    "SegTree.C93_lower_bound",
    "SegTree.C93_upper_bound",
    "SegTree.C93_stable_sort",
    "SegTree.C93_inplace_merge",
    "SegTree.C93_sort",
    "SegTree.C93_merge"
   ],
   "note": ""
  },
  {
   "property": "C94",
   "status": "proved",
   "theorems": [
    "SegTree.C94_stable_sort",
    "SegTree.C94_inplace_merge",
    "SegTree.C94_sort",
    "SegTree.C94_merge"
   ],
   "note": ""
  }
 ]
}