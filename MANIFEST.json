{
 "claims": [
  {
   "property": "C01",
   "status": "proved",
   "theorems": [
    "Bibleref.C01_verse_constructor",
    "Bibleref.C01_existing_verses"
   ],
   "note": ""
  },
  {
   "property": "C02",
   "status": "proved",
   "theorems": [
    "Bibleref.C02_order_is_reading_order",
    "Bibleref.C02_total_order",
    "Bibleref.C02_reading_order_nodup"
   ],
   "note": ""
  },
  {
   "property": "C03",
   "status": "proved",
   "theorems": [
    "Bibleref.C03_add_multibook",
    "Bibleref.C03_C04_applicable"
   ],
   "note": ""
  },
  {
   "property": "C04",
   "status": "proved",
   "theorems": [
    "Bibleref.C04_add_in_book",
    "Bibleref.C03_C04_applicable"
   ],
   "note": ""
  },
  {
   "property": "C05",
   "status": "partial",
   "theorems": [
    "Bibleref.C05_subtract_exact",
    "Bibleref.C05_applicable",
    "Bibleref.C05_subtract_multibook_partial",
    "Bibleref.C05_subtract_in_book_partial",
    "Bibleref.C05_counterexample",
    "Bibleref.C05_subtract_one"
   ],
   "note": "Code bug. Proved when the call allows verse 0s exactly if the global flags do; a single step is right for all flags. C05_counterexample: with no global flags, 9 verses before Psalm 5:0 is computed as 3:8 instead of 4:0. C05_subtract_exact says for all flags which verse is computed."
  },
  {
   "property": "C06",
   "status": "partial",
   "theorems": [
    "Bibleref.C06_subtract_undoes_add",
    "Bibleref.C06_add_undoes_subtract",
    "Bibleref.C06_no_verse0",
    "Bibleref.C06_add_subtract_inverse_partial",
    "Bibleref.C06_counterexample"
   ],
   "note": "Code bug (same cause as C05). Proved when both calls agree with the global flags about verse 0s; false otherwise (C06_counterexample). C06_subtract_undoes_add and C06_add_undoes_subtract say for all flags exactly when the two undo each other."
  },
  {
   "property": "C07",
   "status": "partial",
   "theorems": [
    "Bibleref.C07_add_back_iff",
    "Bibleref.C07_verse_difference",
    "Bibleref.C07_antisymmetric",
    "Bibleref.C07_add_back_partial",
    "Bibleref.C07_counterexample"
   ],
   "note": "Distance, antisymmetry and errors are proved in full. Adding the difference back is false for a verse 0 that the global flags do not allow (C07_counterexample); proved otherwise. C07_add_back_iff says for all pairs exactly when it holds."
  },
  {
   "property": "C08",
   "status": "partial",
   "theorems": [
    "Bibleref.C08_outcomes",
    "Bibleref.C08_negative_partial",
    "Bibleref.C08_counterexample",
    "Bibleref.C08_negative_iff"
   ],
   "note": "First half (possible outcomes) proved in full. Second half is false: a negative distance that leaves the chapter raises (C08_counterexample); inside the chapter it is proved. C08_negative_iff says exactly when a negative number works."
  },
  {
   "property": "C09",
   "status": "proved",
   "theorems": [
    "Bibleref.C09_list_conversions",
    "Bibleref.C09_range_conversions",
    "Bibleref.C09_verse_conversions",
    "Bibleref.C09_conversions_inverse",
    "Bibleref.C09_conversions_monotone"
   ],
   "note": ""
  },
  {
   "property": "C10",
   "status": "proved",
   "theorems": [
    "Bibleref.C10_next_prev",
    "Bibleref.C10_not_listed",
    "Bibleref.C10_next_prev_inverse",
    "Bibleref.C10_walk_visits_all"
   ],
   "note": ""
  },
  {
   "property": "C11",
   "status": "partial",
   "theorems": [
    "Bibleref.C11_is_first_exact",
    "Bibleref.C11_last_verse",
    "Bibleref.C11_first_verse_partial",
    "Bibleref.C11_first_verse_book_partial",
    "Bibleref.C11_first_verse_defect",
    "Bibleref.C11_counterexample",
    "Bibleref.C11_is_last",
    "Bibleref.C11_is_first_partial"
   ],
   "note": "last_verse and is_last_* proved in full. first_verse and is_first_* raise when a verse 0 is allowed by the call's flags but not globally (C11_counterexample); proved otherwise. C11_is_first_exact says for all flags exactly when they raise."
  },
  {
   "property": "C12",
   "status": "proved",
   "theorems": [
    "Bibleref.C12_range_constructor",
    "Bibleref.C12_range_ordered"
   ],
   "note": ""
  },
  {
   "property": "C13",
   "status": "partial",
   "theorems": [
    "Bibleref.C13_exact",
    "Bibleref.C13_value_partial",
    "Bibleref.C13_reversed",
    "Bibleref.C13_sound",
    "Bibleref.C13_counterexample"
   ],
   "note": "Soundness for all arguments and flags, and the reversed case, proved in full. The exact value is proved unless the call allows verse 0s not allowed globally (C13_counterexample); C13_exact says what happens for all flags."
  },
  {
   "property": "C14",
   "status": "partial",
   "theorems": [
    "Bibleref.C14_iteration",
    "Bibleref.C14_iteration_partial",
    "Bibleref.C14_counterexample"
   ],
   "note": "C14_iteration says exactly what iteration yields, for all ranges. The full claim is false when verse 0s are allowed: inner verse 0s are skipped (C14_counterexample)."
  },
  {
   "property": "C15",
   "status": "partial",
   "theorems": [
    "Bibleref.C15_agrees_iff",
    "Bibleref.C15_verse_count",
    "Bibleref.C15_count_is_iteration_partial",
    "Bibleref.C15_counterexample"
   ],
   "note": "The count is proved exactly for all ranges. Agreement with iteration is false for ranges with inner verse 0s (C15_counterexample), which iteration skips. C15_agrees_iff says for exactly which ranges they agree."
  },
  {
   "property": "C16",
   "status": "partial",
   "theorems": [
    "Bibleref.C16_touched",
    "Bibleref.C16_whole_partial",
    "Bibleref.C16_counterexample",
    "Bibleref.C16_whole_exact"
   ],
   "note": "Touched chapters and books proved in full. whole=True is proved for ranges allowed by the global flags, false for ranges that begin with a verse 0 the global flags do not allow (C16_counterexample). C16_whole_exact says what is counted for all ranges of existing verses."
  },
  {
   "property": "C17",
   "status": "partial",
   "theorems": [
    "Bibleref.C17_spans_exact",
    "Bibleref.C17_whole_exact",
    "Bibleref.C17_spans_partial",
    "Bibleref.C17_whole_partial",
    "Bibleref.C17_single",
    "Bibleref.C17_counterexample"
   ],
   "note": "is_single_verse proved in full. The others raise when the call allows verse 0s not allowed globally (C17_counterexample); proved otherwise. C17_spans_exact and C17_whole_exact say for all flags exactly when they raise and that they are right otherwise."
  },
  {
   "property": "C18",
   "status": "partial",
   "theorems": [
    "Bibleref.C18_chap_range_exact",
    "Bibleref.C18_book_range_exact",
    "Bibleref.C18_of_book_exact",
    "Bibleref.C18_whole_bible_exact",
    "Bibleref.C18_of_verse_exact",
    "Bibleref.C18_chap_range_partial",
    "Bibleref.C18_book_range_partial",
    "Bibleref.C18_of_book_partial",
    "Bibleref.C18_of_verse_partial",
    "Bibleref.C18_whole_bible_partial",
    "Bibleref.C18_counterexample"
   ],
   "note": "Proved unless the call allows verse 0s not allowed globally, when the methods raise (C18_counterexample). The _exact theorems say for all flags exactly when they raise and that they are right otherwise."
  },
  {
   "property": "C19",
   "status": "proved",
   "theorems": [
    "Bibleref.C19_split_groups",
    "Bibleref.C19_split",
    "Bibleref.C19_zero_diverges",
    "Bibleref.C19_unique",
    "Bibleref.C19_exact"
   ],
   "note": "C19_exact: split returns a list exactly if it consists of the pieces asked for, and there is only one such list (C19_unique)."
  },
  {
   "property": "C20",
   "status": "proved",
   "theorems": [
    "Bibleref.C20_contains_surrounds_disjoint",
    "Bibleref.C20_containment_order"
   ],
   "note": ""
  },
  {
   "property": "C21",
   "status": "proved",
   "theorems": [
    "Bibleref.C21_is_adjacent"
   ],
   "note": ""
  },
  {
   "property": "C22",
   "status": "proved",
   "theorems": [
    "Bibleref.C22_union"
   ],
   "note": ""
  },
  {
   "property": "C23",
   "status": "proved",
   "theorems": [
    "Bibleref.C23_intersection"
   ],
   "note": ""
  },
  {
   "property": "C24",
   "status": "partial",
   "theorems": [
    "Bibleref.C24_exact",
    "Bibleref.C24_right_if_ok",
    "Bibleref.C24_difference_partial",
    "Bibleref.C24_raises",
    "Bibleref.C24_counterexample"
   ],
   "note": "Code bug: difference raises when the second range begins at the first or ends at the last verse there is (C24_raises, C24_counterexample). Proved in all other cases for flags in force that are among the global ones. C24_exact says what is computed for all flags and all ranges of existing verses; C24_right_if_ok that whatever is returned is right."
  },
  {
   "property": "C25",
   "status": "partial",
   "theorems": [
    "Bibleref.C25_exact",
    "Bibleref.C25_commutative",
    "Bibleref.C25_sym_difference_partial",
    "Bibleref.C25_counterexample"
   ],
   "note": "Commutativity proved in full. Coverage inherits the defects of C24 (C25_counterexample); proved otherwise. C25_exact says what is computed for all flags."
  },
  {
   "property": "C26",
   "status": "proved",
   "theorems": [
    "Bibleref.C26_merge_in_place",
    "Bibleref.C26_merge",
    "Bibleref.C26_canonical_unique",
    "Bibleref.C26_merge_eq",
    "Bibleref.C26_merge_idempotent",
    "Bibleref.C26_merge_shortest",
    "Bibleref.C26_not_allowed_counterexample"
   ],
   "note": "Full statement for lists of ranges allowed by the flags in force; C26_not_allowed_counterexample shows that the hypothesis is needed. C26_merge_in_place says the same of list objects in any reachable heap."
  },
  {
   "property": "C27",
   "status": "proved",
   "theorems": [
    "Bibleref.C27_union_objects",
    "Bibleref.C27_union",
    "Bibleref.C27_union_laws"
   ],
   "note": "Proved for list values and (C27_union_objects) for list objects in any reachable heap."
  },
  {
   "property": "C28",
   "status": "proved",
   "theorems": [
    "Bibleref.C28_intersection_objects",
    "Bibleref.C28_intersection",
    "Bibleref.C28_intersection_laws"
   ],
   "note": "Proved for list values and (C28_intersection_objects) for list objects in any reachable heap."
  },
  {
   "property": "C29",
   "status": "partial",
   "theorems": [
    "Bibleref.C29_bounds",
    "Bibleref.C29_exact_if_ok",
    "Bibleref.C29_difference_objects_partial",
    "Bibleref.C29_difference_exact_partial",
    "Bibleref.C29_difference_partial",
    "Bibleref.C29_counterexample",
    "Bibleref.C29_not_canonical_counterexample",
    "Bibleref.C29_flags_counterexample",
    "Bibleref.C29_laws_partial"
   ],
   "note": "Code bug: ranges of the first list that lie inside a range of the second are not removed (C29_counterexample); also needs the second list canonical and room around its ranges. C29_difference_exact_partial says exactly what is computed; C29_difference_objects_partial says the same of list objects. C29_exact_if_ok drops the condition on room, C29_bounds that of canonical form: nothing is lost or added, and what is wrongly kept are stretches inside a range of the second list. C29_laws_partial: what is left and the intersection make up the first list, and their verse counts add up."
  },
  {
   "property": "C30",
   "status": "partial",
   "theorems": [
    "Bibleref.C30_exact_if_ok",
    "Bibleref.C30_sym_difference_partial",
    "Bibleref.C30_counterexample"
   ],
   "note": "Code bug inherited from C29: the symmetric difference of a list with itself is the list (C30_counterexample). Proved where the defect does not bite. C30_exact_if_ok says for all lists what is computed."
  },
  {
   "property": "C31",
   "status": "partial",
   "theorems": [
    "Bibleref.C31_contains_objects",
    "Bibleref.C31_contains",
    "Bibleref.C31_contains_sound",
    "Bibleref.C31_multibook_counterexample",
    "Bibleref.C31_is_disjoint"
   ],
   "note": "contains and is_disjoint are proved in full for lists of allowed ranges. Status partial only because for ranges that cross books without MULTIBOOK contains may wrongly say no (C31_multibook_counterexample); when it says yes it is right (C31_contains_sound)."
  },
  {
   "property": "C32",
   "status": "partial",
   "theorems": [
    "Bibleref.C32_exact",
    "Bibleref.C32_covers_iff",
    "Bibleref.C32_range_partial",
    "Bibleref.C32_chap_book_range_partial",
    "Bibleref.C32_counterexample"
   ],
   "note": "Code bug: range() takes the end of the range that starts last, not the last end (C32_counterexample). Proved for lists whose ranges end in the order in which they start. C32_exact says what is returned for all lists, C32_covers_iff exactly when it covers the list."
  },
  {
   "property": "C33",
   "status": "partial",
   "theorems": [
    "Bibleref.C33_verse_count",
    "Bibleref.C33_chap_book_count",
    "Bibleref.C33_whole_count_partial",
    "Bibleref.C33_merged_verse_count",
    "Bibleref.C33_whole_exact"
   ],
   "note": "Proved; the part with whole=True is partial as for C16 (ranges allowed by the global flags); C33_whole_exact says what is counted for all ranges of existing verses."
  },
  {
   "property": "C34",
   "status": "partial",
   "theorems": [
    "Bibleref.C34_grouped_list_partial",
    "Bibleref.C34_grouped_list_counterexample"
   ],
   "note": "Proved for all histories of all operations with sensible arguments (SensibleRun). False without: insert_group_at where a group begins already breaks the list (C34_grouped_list_counterexample), see also C35-C37."
  },
  {
   "property": "C35",
   "status": "partial",
   "theorems": [
    "Bibleref.C35_sort_partial",
    "Bibleref.C35_sort_exact",
    "Bibleref.C35_calls",
    "Bibleref.C35_sort_counterexample",
    "Bibleref.C35_sort_counterexample_exists",
    "Bibleref.C35_sort_damage_counterexample",
    "Bibleref.C35_sort_incomparable_counterexample"
   ],
   "note": "Proved given enough room for nested calls and elements that can be compared. For every recursion limit there are lists for which sort raises RecursionError and loses elements (C35_sort_counterexample, _exists, _damage); it also loses elements when a comparison raises (_incomparable). C35_sort_exact says exactly how much room for nested calls sort needs, and C35_calls bounds it: for n >= 2 elements at least n/2 + 2 and at most n + 1."
  },
  {
   "property": "C36",
   "status": "partial",
   "theorems": [
    "Bibleref.C36_insert_group_at_partial",
    "Bibleref.C36_insert_group_at_error",
    "Bibleref.C36_insert_group_at_counterexample"
   ],
   "note": "Proved for positions where no group begins; false where a group other than the first begins (C36_insert_group_at_counterexample)."
  },
  {
   "property": "C37",
   "status": "partial",
   "theorems": [
    "Bibleref.C37_getitem_partial",
    "Bibleref.C37_getitem_counterexample",
    "Bibleref.C37_empty_counterexample",
    "Bibleref.C37_index_partial",
    "Bibleref.C37_index_counterexample",
    "Bibleref.C37_count_contains",
    "Bibleref.C37_every_index",
    "Bibleref.C37_every_index_empty",
    "Bibleref.C37_index_exact"
   ],
   "note": "Proved for indices from -len on. Indices below -len are not refused, empty lists raise other exceptions, limit_index=0 is ignored (C37_*_counterexample). C37_every_index, C37_every_index_empty and C37_index_exact say what happens for every index and limit."
  },
  {
   "property": "C38",
   "status": "partial",
   "theorems": [
    "Bibleref.C38_views_partial",
    "Bibleref.C38_views_counterexample"
   ],
   "note": "Proved for histories without clear; after clear stale views stay usable (C38_views_counterexample)."
  },
  {
   "property": "C39",
   "status": "proved",
   "theorems": [
    "Bibleref.C39_equals",
    "Bibleref.C39_equivalence"
   ],
   "note": ""
  },
  {
   "property": "C40",
   "status": "partial",
   "theorems": [
    "Bibleref.C40_verse",
    "Bibleref.C40_default_partial",
    "Bibleref.C40_counterexample"
   ],
   "note": "Proved for every data set with recognisable names. For the default data one exception: 'SongofSongs' (title without spaces) is not recognised (C40_counterexample)."
  },
  {
   "property": "C41",
   "status": "partial",
   "theorems": [
    "Bibleref.C41_range_partial",
    "Bibleref.C41_default_partial",
    "Bibleref.C41_counterexample_flags"
   ],
   "note": "Proved when the flags given agree with the global flags about verse 0s; false otherwise (C41_counterexample_flags). Exception for the title of Song of Songs as in C40."
  },
  {
   "property": "C42",
   "status": "partial",
   "theorems": [
    "Bibleref.C42_list_partial",
    "Bibleref.C42_default_partial",
    "Bibleref.C42_counterexample_flags",
    "Bibleref.C42_counterexample_force"
   ],
   "note": "Proved with the conditions named in C42_list_partial, each of which is shown needed by a counterexample."
  },
  {
   "property": "C43",
   "status": "partial",
   "theorems": [
    "Bibleref.C43_keeps_if_ok",
    "Bibleref.C43_keeps",
    "Bibleref.C43_strings_partial",
    "Bibleref.C43_counterexample_flags"
   ],
   "note": "Keeping ranges and idempotence proved for all lists of ranges allowed by the flags given or by the global ones. Agreement of strings is false when the flags given disagree with the global ones on verse 0s (C43_counterexample_flags); proved otherwise. C43_keeps_if_ok needs no assumption but that regroup returns."
  },
  {
   "property": "C44",
   "status": "partial",
   "theorems": [
    "Bibleref.C44_continues",
    "Bibleref.C44_counterexample",
    "Bibleref.C44_named_partial",
    "Bibleref.C44_bare"
   ],
   "note": "Code bug: a string beginning with a number is read relative to whatever was parsed before (C44_counterexample). Proved for strings beginning with a book's name. C44_continues says exactly how every string is read after every history."
  },
  {
   "property": "C45",
   "status": "proved",
   "theorems": [
    "Bibleref.C45_list",
    "Bibleref.C45_range",
    "Bibleref.C45_verse"
   ],
   "note": ""
  },
  {
   "property": "C46",
   "status": "proved",
   "theorems": [
    "Bibleref.C46_unambiguous",
    "Bibleref.C46_from_str",
    "Bibleref.C46_title_abbrev",
    "Bibleref.C46_raise",
    "Bibleref.C46_custom"
   ],
   "note": ""
  },
  {
   "property": "C47",
   "status": "partial",
   "theorems": [
    "Bibleref.C47_only_in_force_verses",
    "Bibleref.C47_only_in_force_ranges",
    "Bibleref.C47_only_in_force_lists",
    "Bibleref.C47_first_verse_exact",
    "Bibleref.C47_explicit_flags_partial",
    "Bibleref.C47_global_flags",
    "Bibleref.C47_positional_partial",
    "Bibleref.C47_counterexample",
    "Bibleref.C47_lists_partial"
   ],
   "note": "Proved for constructors, addition, adjacency, union, intersection, and for lists merge, union, intersection and contains with groups. False for explicit NONE, first_verse, subtraction and difference (C47_counterexample). The C47_only_in_force theorems: no method distinguishes two values of the flags argument that put the same flags in force."
  },
  {
   "property": "C48",
   "status": "proved",
   "theorems": [
    "Bibleref.C48_book_order",
    "Bibleref.C48_repetition_refused"
   ],
   "note": ""
  },
  {
   "property": "C49",
   "status": "partial",
   "theorems": [
    "Bibleref.C49_updates_partial",
    "Bibleref.C49_counterexample"
   ],
   "note": "The list objects are updated as claimed; but the in-place operators return None, so the variable holds None afterwards (C49_counterexample, for every pair of lists)."
  },
  {
   "property": "C50",
   "status": "partial",
   "theorems": [
    "Bibleref.C50_extend_partial",
    "Bibleref.C50_extend_self_counterexample",
    "Bibleref.C50_ends_partial",
    "Bibleref.C50_union_update_self_counterexample"
   ],
   "note": "Proved (C50_ends_partial) for all updating operations, in every reachable heap, except extend and union_update of a list with itself, which never end (C50_extend_self_counterexample, C50_union_update_self_counterexample)."
  },
  {
   "property": "C51",
   "status": "proved",
   "theorems": [
    "Bibleref.C51_copy",
    "Bibleref.C51_only_target"
   ],
   "note": ""
  },
  {
   "property": "C52",
   "status": "partial",
   "theorems": [
    "Bibleref.C52_is_disjoint",
    "Bibleref.C52_contains",
    "Bibleref.C52_surrounds",
    "Bibleref.C52_is_adjacent_partial",
    "Bibleref.C52_union",
    "Bibleref.C52_intersection",
    "Bibleref.C52_difference_partial",
    "Bibleref.C52_difference_exact",
    "Bibleref.C52_adjacent_flags_counterexample",
    "Bibleref.C52_difference_counterexample",
    "Bibleref.C52_sym_difference_counterexample"
   ],
   "note": "is_disjoint, contains, surrounds, union, intersection proved in full. is_adjacent ignores the flags given; difference raises for every overlapping list it does not cover (C52_difference_exact); sym_difference always raises (counterexamples)."
  },
  {
   "property": "C53",
   "status": "proved",
   "theorems": [
    "Bibleref.C53_grammar",
    "Bibleref.C53_unambiguous",
    "Bibleref.C53_refused"
   ],
   "note": ""
  },
  {
   "property": "C54",
   "status": "proved",
   "theorems": [
    "Bibleref.C54_counts"
   ],
   "note": ""
  },
  {
   "property": "C55",
   "status": "partial",
   "theorems": [
    "Bibleref.C55_list_partial",
    "Bibleref.C55_counterexample",
    "Bibleref.C55_range_partial"
   ],
   "note": "Proved for ranges and for lists whose groups are not preserved; false with groups preserved (C55_counterexample)."
  },
  {
   "property": "C56",
   "status": "partial",
   "theorems": [
    "Bibleref.C56_partial",
    "Bibleref.C56_counterexample"
   ],
   "note": "Proved when flags agree with the global ones about VERSE_0 and, with force_start_verses, the range lies in one book; false otherwise (C56_counterexample)."
  },
  {
   "property": "C57",
   "status": "partial",
   "theorems": [
    "Bibleref.C57_list_partial",
    "Bibleref.C57_range_partial",
    "Bibleref.C57_verse_partial",
    "Bibleref.C57_counterexample"
   ],
   "note": "Proved for the default data except for the title of Song of Songs without spaces, where it is false (C57_counterexample)."
  },
  {
   "property": "C58",
   "status": "partial",
   "theorems": [
    "Bibleref.C58_intact_partial",
    "Bibleref.C58_recursion_counterexample",
    "Bibleref.C58_incomparable_counterexample"
   ],
   "note": "Proved for all programs of sensible calls that end. A RecursionError inside sort or merge leaves the list damaged (C58_recursion_counterexample), and so does the TypeError of comparing a book that is not in the book order (C58_incomparable_counterexample)."
  },
  {
   "property": "C59",
   "status": "partial",
   "theorems": [
    "Bibleref.C59_chap_ranges_partial",
    "Bibleref.C59_chap_ranges_defect",
    "Bibleref.C59_counterexample"
   ],
   "note": "Proved except for a book whose first chapter has a verse 0, called with VERSE_0 while the global flags do not have it; the code raises InvalidReferenceError there (C59_chap_ranges_defect, C59_counterexample)."
  },
  {
   "property": "C60",
   "status": "partial",
   "theorems": [
    "Bibleref.C60_range_adjacent",
    "Bibleref.C60_range_difference_partial",
    "Bibleref.C60_range_sym_difference_partial",
    "Bibleref.C60_union_update",
    "Bibleref.C60_list_difference_partial",
    "Bibleref.C60_list_sym_difference_partial",
    "Bibleref.C60_verse_subtract",
    "Bibleref.C60_range_rejects",
    "Bibleref.C60_list_rejects",
    "Bibleref.C60_verse_as_range",
    "Bibleref.C60_range_operators",
    "Bibleref.C60_range_relations",
    "Bibleref.C60_list_operators",
    "Bibleref.C60_list_relations_partial",
    "Bibleref.C60_list_relations_strings",
    "Bibleref.C60_counterexample",
    "Bibleref.C60_verse_rejects"
   ],
   "note": "Proved for all methods except contains (and the operator in) and is_disjoint of a list with something that is no Bible reference: they do not check the argument and accept some values, or raise TypeError (C60_counterexample). Differences have the exceptions of C24, C25, C29, C30 and C52."
  },
  {
   "property": "C61",
   "status": "partial",
   "theorems": [
    "Bibleref.C61_verse_value",
    "Bibleref.C61_verse_outcome",
    "Bibleref.C61_verse_types",
    "Bibleref.C61_range_outcome_partial",
    "Bibleref.C61_range_types",
    "Bibleref.C61_range_omitted",
    "Bibleref.C61_range_value_partial",
    "Bibleref.C61_range_order",
    "Bibleref.C61_range_start_end",
    "Bibleref.C61_range_start_end_types",
    "Bibleref.C61_range_counterexample",
    "Bibleref.C61_list_items",
    "Bibleref.C61_list_groups",
    "Bibleref.C61_list_arguments",
    "Bibleref.C61_list_single",
    "Bibleref.C61_list_outcome",
    "Bibleref.C61_range_value_exact"
   ],
   "note": "Verses and lists proved. Ranges: False that wrong types raise ValueError, that chapter numbers given as strings are put in order, and that start/end are checked to be verses (C61_range_counterexample); proved otherwise, with the exception of C13 for verse 0s, for which C61_range_value_exact says what happens. C61_range_start_end_types says what start/end of any type do."
  },
  {
   "property": "C62",
   "status": "partial",
   "theorems": [
    "Bibleref.C62_outcome",
    "Bibleref.C62_assign_rest",
    "Bibleref.C62_assign",
    "Bibleref.C62_import",
    "Bibleref.C62_history",
    "Bibleref.C62_history_order_partial",
    "Bibleref.C62_recovery",
    "Bibleref.C62_rejected",
    "Bibleref.C62_counterexample"
   ],
   "note": "Proved except that a book order with repetitions, which raises KeyError, is kept as book_order and changes the orders of some books (C62_rejected says which, C62_counterexample); the next correct order repairs this (C62_recovery)."
  },
  {
   "property": "C63",
   "status": "partial",
   "theorems": [
    "Bibleref.C63_outcome",
    "Bibleref.C63_unexpected_partial",
    "Bibleref.C63_incomplete",
    "Bibleref.C63_culprit",
    "Bibleref.C63_bounds",
    "Bibleref.C63_counterexample"
   ],
   "note": "Proved except for strings that are right but not complete, like \"Mark 3:\": there the positions are always -1 and 0 (C63_incomplete, C63_counterexample)."
  },
  {
   "property": "C64",
   "status": "partial",
   "theorems": [
    "Bibleref.C64_meaning_partial",
    "Bibleref.C64_sound",
    "Bibleref.C64_flags_counterexample",
    "Bibleref.C64_joined_partial",
    "Bibleref.C64_counterexample"
   ],
   "note": "Proved when the call allows verse 0s only if the global flags do (otherwise references may be refused as in C13, C64_flags_counterexample; what is read is right for all flags, C64_sound). The part about two references is false if they are in reverse order: Mark 4-2 is read as Mark 2:28-4:1 (C64_counterexample)."
  },
  {
   "property": "C65",
   "status": "partial",
   "theorems": [
    "Bibleref.C65_only",
    "Bibleref.C65_verses",
    "Bibleref.C65_add",
    "Bibleref.C65_ranges",
    "Bibleref.C65_range_pairs",
    "Bibleref.C65_list_str",
    "Bibleref.C65_strings_partial",
    "Bibleref.C65_positional_partial",
    "Bibleref.C65_end_book",
    "Bibleref.C65_two_books",
    "Bibleref.C65_verses_incomparable",
    "Bibleref.C65_ranges_incomparable",
    "Bibleref.C65_counterexample"
   ],
   "note": "Proved for verses, ranges, pairs of ranges, strings of ranges and lists, and for reading strings without a range separator and positional arguments without an end book. False with a range separator or an end book: \"Mal 3:1-5\" is refused if Malachi is not in the order (C65_counterexample; C65_end_book says when). C65_two_books, _verses_incomparable and _ranges_incomparable say what happens together with verses of other books."
  },
  {
   "property": "C66",
   "status": "partial",
   "theorems": [
    "Bibleref.C66_loop_partial",
    "Bibleref.C66_removing",
    "Bibleref.C66_replacing",
    "Bibleref.C66_appending",
    "Bibleref.C66_appending_forever",
    "Bibleref.C66_groups_partial",
    "Bibleref.C66_groups_appended",
    "Bibleref.C66_groups_counterexample",
    "Bibleref.C66_view_partial",
    "Bibleref.C66_view_appending",
    "Bibleref.C66_view_counterexample",
    "Bibleref.C66_counterexample"
   ],
   "note": "Proved for loops over elements in both directions whose body makes at most one call per iteration other than clear and sort, chosen by any function of what has been yielded and of the list. False for clear and for two removals in one iteration (removed elements are yielded, C66_counterexample); C71 says what happens with any number of calls between two steps. The same for loops over groups, which end early when the first element of the current group has been removed or put after another one (C66_groups_counterexample), and for loops over one group, which end early when the current element is the first one and is removed (C66_view_counterexample)."
  },
  {
   "property": "C67",
   "status": "partial",
   "theorems": [
    "Bibleref.C67_call_partial",
    "Bibleref.C67_atomic_partial",
    "Bibleref.C67_extend_partial",
    "Bibleref.C67_read",
    "Bibleref.C67_equals_partial",
    "Bibleref.C67_equals_first",
    "Bibleref.C67_index_partial",
    "Bibleref.C67_index_counterexample",
    "Bibleref.C67_counterexample"
   ],
   "note": "Proved for all methods except extend, += and append_group, which keep the items before the wrong one, del list[None], which removes the last item, and == with an object without length, which raises TypeError (C67_counterexample), and index with a Bible reference as limit_index, which raises other exceptions (C67_index_counterexample). C67_equals_first says what equals does with any sequence. Indices below minus the length and insert_group_at are subject to the conditions of C36 and C37. An argument that is a list of the program changed by the call itself is not covered; see C50."
  },
  {
   "property": "C68",
   "status": "partial",
   "theorems": [
    "Bibleref.C68_verse",
    "Bibleref.C68_range",
    "Bibleref.C68_list_partial",
    "Bibleref.C68_distinct",
    "Bibleref.C68_default",
    "Bibleref.C68_counterexample"
   ],
   "note": "Proved except that repr of the empty list, BibleRangeList(\"\"), raises when evaluated (C68_counterexample). Ranges and lists must be allowed by the global flags, since repr takes no flags."
  },
  {
   "property": "C69",
   "status": "proved",
   "theorems": [
    "Bibleref.C69_parts",
    "Bibleref.C69_default",
    "Bibleref.C69_blanks"
   ],
   "note": "Proved for every data set with plain separators and distinct names, and without a condition on names for the default data (C69_default)."
  },
  {
   "property": "C70",
   "status": "proved",
   "theorems": [
    "Bibleref.C70_lattice",
    "Bibleref.C70_contains",
    "Bibleref.C70_disjoint",
    "Bibleref.C70_counts"
   ],
   "note": "Full statement for lists of ranges allowed by the flags in force; verse_count takes no flags, so the counting law is for the global ones. Commutativity, associativity, idempotence and the other distributive law are part of C27 and C28."
  },
  {
   "property": "C71",
   "status": "partial",
   "theorems": [
    "Bibleref.C71_iterators_partial",
    "Bibleref.C71_gives_elements",
    "Bibleref.C71_unchanged",
    "Bibleref.C71_views",
    "Bibleref.C71_counterexample"
   ],
   "note": "Proved for all programs in which an iterator that has begun is not used any more after its list has been cleared. False that only elements of the list are given: if the element an iterator is at has been removed and then the one after it, the latter is given all the same, and after clear the iterator goes on (C71_counterexample; C71_gives_elements says when the claim holds, C71_iterators_partial what is given in all cases). False also that an iterator over list.groups goes on with the next group: it ends if the first element of the group it is at has been removed or has come after another one (C71_counterexample, C71_iterators_partial)."
  },
  {
   "property": "C72",
   "status": "proved",
   "theorems": [
    "Bibleref.C72_groups",
    "Bibleref.C72_same_groups"
   ],
   "note": ""
  },
  {
   "property": "C73",
   "status": "proved",
   "theorems": [
    "Bibleref.C73_spelling",
    "Bibleref.C73_case",
    "Bibleref.C73_verse_separator",
    "Bibleref.C73_ends",
    "Bibleref.C73_separators"
   ],
   "note": "Letter case is compared as the code does (casefold), for letters and other word characters that are no digits. White space is what the grammar ignores: blank, tab, line feed, carriage return, form feed."
  },
  {
   "property": "C74",
   "status": "partial",
   "theorems": [
    "Bibleref.C74_verse",
    "Bibleref.C74_range",
    "Bibleref.C74_range_args_partial",
    "Bibleref.C74_list_string_partial",
    "Bibleref.C74_range_string_partial",
    "Bibleref.C74_verse_string_partial",
    "Bibleref.C74_covers_partial",
    "Bibleref.C74_add",
    "Bibleref.C74_subtract",
    "Bibleref.C74_count",
    "Bibleref.C74_counterexample"
   ],
   "note": "Proved for verses, ranges of two verses, steps and counts. For arguments and strings proved when the second call allows verse 0s only if the global flags do (otherwise Psalm 3 is refused, as in C13). False for strings if references are in reverse order: Psalm 4-2 covers 4:1 without VERSE_0 but not with it; C74_covers_partial shows that no other verse can be lost. False for verses written as a range: Psalm 3-3:1 is a verse only without VERSE_0 (C74_counterexample)."
  },
  {
   "property": "C75",
   "status": "proved",
   "theorems": [
    "Bibleref.C75_one_after",
    "Bibleref.C75_refused",
    "Bibleref.C75_result",
    "Bibleref.C75_trailing",
    "Bibleref.C75_empty",
    "Bibleref.C75_named",
    "Bibleref.C75_flatten",
    "Bibleref.C75_many"
   ],
   "note": "C75_one_after gives the state the parser is left in as well, when the second part fits the grammar. Usual separators are distinct characters that are no word characters and no white space."
  },
  {
   "property": "C76",
   "status": "proved",
   "theorems": [
    "Bibleref.C76_swapped",
    "Bibleref.C76_verses",
    "Bibleref.C76_books",
    "Bibleref.C76_ranges",
    "Bibleref.C76_total_order",
    "Bibleref.C76_kinds",
    "Bibleref.C76_gt"
   ],
   "note": "Sequences compared as values of any type are not in the model: tuples and Python lists raise TypeError there."
  },
  {
   "property": "C77",
   "status": "partial",
   "theorems": [
    "Bibleref.C77_union",
    "Bibleref.C77_equal",
    "Bibleref.C77_difference_partial",
    "Bibleref.C77_split_partial",
    "Bibleref.C77_split_counterexample"
   ],
   "note": "Proved for union, intersection, is_disjoint, contains. For the difference under the conditions of C29_difference_partial. For split, missing are ranges with verse 0s that the global flags do not allow, where the code loses verses: C77_split_counterexample."
  },
  {
   "property": "C78",
   "status": "proved",
   "theorems": [
    "Bibleref.C78_split_merge"
   ],
   "note": "With enough loop steps: more than the data has verses."
  },
  {
   "property": "C79",
   "status": "partial",
   "theorems": [
    "Bibleref.C79_alone",
    "Bibleref.C79_ends",
    "Bibleref.C79_uninterrupted",
    "Bibleref.C79_partial",
    "Bibleref.C79_counterexample_book",
    "Bibleref.C79_counterexample_chapter",
    "Bibleref.C79_counterexample_flags",
    "Bibleref.C79_counterexample_first"
   ],
   "note": "Holds for strings that leave no book and no chapter to be understood, whatever the other threads read, if all threads use the same flags and the transformer exists already or these are the global flags. For each of these conditions a schedule shows that it is needed. C79_alone ties the model with single accesses to the one without threads."
  },
  {
   "property": "C80",
   "status": "proved",
   "theorems": [
    "Bibleref.C80_iterators",
    "Bibleref.C80_list"
   ],
   "note": "The generator is modelled as a state machine, with one transition for each next(). C80_iterators is for every program; C80_list relates an iterator used up to list(range). The range objects and the data are not changed meanwhile."
  },
  {
   "property": "C81",
   "status": "partial",
   "theorems": [
    "Bibleref.C81_ranges",
    "Bibleref.C81_lists",
    "Bibleref.C81_intersection",
    "Bibleref.C81_union",
    "Bibleref.C81_merge",
    "Bibleref.C81_contains",
    "Bibleref.C81_list_union",
    "Bibleref.C81_list_intersection",
    "Bibleref.C81_counterexample"
   ],
   "note": "Proved for all methods that make no new range out of two. union, intersection, difference and merge raise MultibookRangeError although every range given existed before, ranges that meet at the end of a book are not joined, and contains says no (C81_counterexample). C81_intersection, C81_union, C81_merge, C81_contains, C81_list_union and C81_list_intersection say exactly when this happens and what the result is otherwise. For difference, C24_exact does so for all flags and all existing ranges."
  },
  {
   "property": "C82",
   "status": "partial",
   "theorems": [
    "Bibleref.C82_steps",
    "Bibleref.C82_steps_end",
    "Bibleref.C82_step_distance",
    "Bibleref.C82_step_back_distance_partial",
    "Bibleref.C82_steps_back_partial",
    "Bibleref.C82_distances_partial",
    "Bibleref.C82_distances_one",
    "Bibleref.C82_counterexample"
   ],
   "note": "False when a verse 0 is involved that the flags do not allow (C82_counterexample): Psalm 3:0 + 8 + 1 is 4:1, Psalm 3:0 + 9 is 4:0. C82_steps says exactly when steps forward add up, C82_distances_partial and C82_distances_one when differences do; C82_step_distance holds without exception. Steps back are proved when the call and the global flags agree and the first verse is allowed by them; C05_subtract_exact says what is computed otherwise."
  },
  {
   "property": "C83",
   "status": "proved",
   "theorems": [
    "Bibleref.C83_books",
    "Bibleref.C83_verses",
    "Bibleref.C83_ranges",
    "Bibleref.C83_operations",
    "Bibleref.C83_lists",
    "Bibleref.C83_list_objects",
    "Bibleref.C83_iterators",
    "Bibleref.C83_verse_shown",
    "Bibleref.C83_range_shown",
    "Bibleref.C83_list_shown",
    "Bibleref.C83_names_read",
    "Bibleref.C83_read"
   ],
   "note": "Equality of the model's functions for two data sets that have the same verses. For strings the exact parts of the data that matter."
  },
  {
   "property": "C84",
   "status": "proved",
   "theorems": [
    "Bibleref.C84_view",
    "Bibleref.C84_shown",
    "Bibleref.C84_distinct",
    "Bibleref.C84_ranges",
    "Bibleref.C84_default"
   ],
   "note": "C84_ranges is for any data with plain separators and names that are read back (as in C68) and have no closing parenthesis; C84_default shows that the default data meets this."
  },
  {
   "property": "C85",
   "status": "proved",
   "theorems": [
    "Bibleref.C85_steps",
    "Bibleref.C85_multiples",
    "Bibleref.C85_again",
    "Bibleref.C85_number_last_counterexample"
   ],
   "note": "C85_number_last_counterexample is the last sentence of the property: it shows that the order of the steps matters."
  },
  {
   "property": "C86",
   "status": "partial",
   "theorems": [
    "Bibleref.C86_chapters_books",
    "Bibleref.C86_number",
    "Bibleref.C86_sizes_exact",
    "Bibleref.C86_sizes_partial",
    "Bibleref.C86_counterexample"
   ],
   "note": "The numbers of pieces are proved in full. The sizes are proved for ranges allowed by the global flags; the code violates them for a range with a verse 0 at an end when VERSE_0 is not set (C86_counterexample): verse 0s inside are then counted by split but not by verse_count of the pieces. C86_sizes_exact says what the sizes are for all existing ranges."
  },
  {
   "property": "C87",
   "status": "partial",
   "theorems": [
    "Bibleref.C87_order_partial",
    "Bibleref.C87_end_partial",
    "Bibleref.C87_order_exact",
    "Bibleref.C87_back_partial",
    "Bibleref.C87_counterexample"
   ],
   "note": "False as stated: add(n) on a verse 0 counts all verse 0s even if VERSE_0 is off, so with the default flags Psalm 3:8 < 4:0, but nine verses later are 5:1 and 5:0 (C87_counterexample). C87_order_partial and C87_end_partial hold for add unless the later verse is a verse 0 and neither the earlier verse nor the flags allow verse 0s; C87_order_exact says for that case too which of the results is first. C87_back_partial is for subtract, when the call allows verse 0s exactly if the global flags do and neither verse is a verse 0 that these do not allow."
  },
  {
   "property": "C88",
   "status": "proved",
   "theorems": [
    "Bibleref.C88_chapters",
    "Bibleref.C88_books",
    "Bibleref.C88_ends"
   ],
   "note": "For calls of first_verse that return; when it raises (VERSE_0 passed but not set globally) is in C11."
  }
 ]
}
