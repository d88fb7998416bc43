{
 "claims": [
  {
   "property": "C01",
   "status": "proved",
   "theorems": [
    "MortonRs.C01_set_get_2D",
    "MortonRs.C01_set_get_3D"
   ],
   "note": "All histories (Reach2D/Reach3D .all), all widths, all targets; dynamic storage under DynWrites, the rest is C47."
  },
  {
   "property": "C02",
   "status": "proved",
   "theorems": [
    "MortonRs.C02_panics_exactly_out_of_range_2D",
    "MortonRs.C02_panics_exactly_out_of_range_3D"
   ],
   "note": "All histories; fault is exactly the explicit panic."
  },
  {
   "property": "C03",
   "status": "proved",
   "theorems": [
    "MortonRs.C03_try_from_lossless_2D",
    "MortonRs.C03_try_from_lossless_3D"
   ],
   "note": "Slice and array constructors; Shows = depth and get_cell_at_level, Yields = every number of next() calls."
  },
  {
   "property": "C04",
   "status": "proved",
   "theorems": [
    "MortonRs.C04_fixed_pads_zero_2D",
    "MortonRs.C04_fixed_pads_zero_3D"
   ],
   "note": ""
  },
  {
   "property": "C05",
   "status": "proved",
   "theorems": [
    "MortonRs.C05_too_many_cells_2D",
    "MortonRs.C05_too_many_cells_3D"
   ],
   "note": ""
  },
  {
   "property": "C06",
   "status": "proved",
   "theorems": [
    "MortonRs.C06_iterator_2D",
    "MortonRs.C06_iterator_3D"
   ],
   "note": ""
  },
  {
   "property": "C07",
   "status": "proved",
   "theorems": [
    "MortonRs.C07_inverted_2D",
    "MortonRs.C07_inverted_3D"
   ],
   "note": ""
  },
  {
   "property": "C08",
   "status": "proved",
   "theorems": [
    "MortonRs.C08_ancestor_2D",
    "MortonRs.C08_ancestor_3D"
   ],
   "note": ""
  },
  {
   "property": "C09",
   "status": "proved",
   "theorems": [
    "MortonRs.C09_parent_and_with_depth_2D",
    "MortonRs.C09_parent_and_with_depth_3D"
   ],
   "note": ""
  },
  {
   "property": "C10",
   "status": "proved",
   "theorems": [
    "MortonRs.C10_descendant_and_child_2D",
    "MortonRs.C10_descendant_and_child_3D"
   ],
   "note": "Lengths limited to what a slice / the address space can hold (room hypotheses)."
  },
  {
   "property": "C11",
   "status": "partial",
   "theorems": [
    "MortonRs.C11_refuted",
    "MortonRs.C11_refuted_raw_3D",
    "MortonRs.C11_round_trips_2D_partial",
    "MortonRs.C11_round_trips_3D_partial"
   ],
   "note": "2D static: all histories. Others: all histories without the stray-bit calls (scope .canonical). False in general: C11_refuted (2D zeroed(4)), C11_refuted_raw_3D (raw bits). Exactly when, for all histories: C109_round_trips_2D/3D."
  },
  {
   "property": "C12",
   "status": "proved",
   "theorems": [
    "MortonRs.C12_static_order_2D",
    "MortonRs.C12_static_order_3D"
   ],
   "note": ""
  },
  {
   "property": "C13",
   "status": "proved",
   "theorems": [
    "MortonRs.C13_dynamic_order_2D",
    "MortonRs.C13_dynamic_order_3D"
   ],
   "note": ""
  },
  {
   "property": "C14",
   "status": "partial",
   "theorems": [
    "MortonRs.C14_fixed_order_2D",
    "MortonRs.C14_fixed_order_3D_partial",
    "MortonRs.C14_refuted"
   ],
   "note": "2D: all histories. 3D: histories without stray unused bits. False otherwise: C14_refuted (raw bits), C16_refuted_converted_3D (dynamic to fixed conversion)."
  },
  {
   "property": "C15",
   "status": "partial",
   "theorems": [
    "MortonRs.C15_cmp_agrees_with_eq_2D_partial",
    "MortonRs.C15_cmp_agrees_with_eq_3D_partial",
    "MortonRs.C15_refuted",
    "MortonRs.C15_refuted_raw_3D",
    "MortonRs.C15_total_order_2D",
    "MortonRs.C15_total_order_3D"
   ],
   "note": "Total order: all histories (fixed: all bit patterns). Agreement with ==: all 2D fixed and static, otherwise histories without stray bits; false in general: C15_refuted, C15_refuted_raw_3D. What == compares otherwise: C109_equality_2D/3D."
  },
  {
   "property": "C16",
   "status": "partial",
   "theorems": [
    "MortonRs.C16_eq_2D_partial",
    "MortonRs.C16_eq_3D_partial",
    "MortonRs.C16_fixed_eq_2D",
    "MortonRs.C16_refuted",
    "MortonRs.C16_refuted_converted_3D",
    "MortonRs.C16_refuted_raw_3D"
   ],
   "note": "2D fixed and static: all histories; others: histories without stray bits. False in general: C16_refuted, C16_refuted_converted_3D, C16_refuted_raw_3D. Exactly when, for all histories: C109_unspoiled_2D/3D, C109_equality_2D/3D."
  },
  {
   "property": "C17",
   "status": "proved",
   "theorems": [
    "MortonRs.C17_equal_indices_hash_equally_2D",
    "MortonRs.C17_equal_indices_hash_equally_3D"
   ],
   "note": "Every pair of values, reachable or not."
  },
  {
   "property": "C18",
   "status": "proved",
   "theorems": [
    "MortonRs.C18_subtree_contiguous_2D",
    "MortonRs.C18_subtree_contiguous_3D"
   ],
   "note": "All histories."
  },
  {
   "property": "C19",
   "status": "proved",
   "theorems": [
    "MortonRs.C19_reads_grid_2D",
    "MortonRs.C19_reads_grid_3D"
   ],
   "note": "Coordinates as binary numerals of the cell coordinates, hence below 2^depth."
  },
  {
   "property": "C20",
   "status": "partial",
   "theorems": [
    "MortonRs.C20_deep_grid_2D_partial",
    "MortonRs.C20_deep_grid_3D_partial",
    "MortonRs.C20_refuted_2D",
    "MortonRs.C20_refuted_3D"
   ],
   "note": "Exact result at every depth proved (C20_deep_grid_*): correct up to the pointer width, overflow panic beyond it with checks, wrapped coordinates without. False in general: C20_refuted_2D/3D, at every depth beyond the pointer width."
  },
  {
   "property": "C21",
   "status": "proved",
   "theorems": [
    "MortonRs.C21_fixed_grid_2D"
   ],
   "note": ""
  },
  {
   "property": "C22",
   "status": "proved",
   "theorems": [
    "MortonRs.C22_fixed_grid_3D"
   ],
   "note": "32- and 64-bit targets; MAX_LEVELS >= pointer width is the compile error."
  },
  {
   "property": "C23",
   "status": "proved",
   "theorems": [
    "MortonRs.C23_fast_equals_generic_3D"
   ],
   "note": "The two results are identical, not only ==."
  },
  {
   "property": "C24",
   "status": "partial",
   "theorems": [
    "MortonRs.C24_elsewhere_2D",
    "MortonRs.C24_refuted",
    "MortonRs.C24_refuted_narrow",
    "MortonRs.C24_static_grid_2D_partial"
   ],
   "note": "Proved when MAX_LEVELS <= pointer width and the shift MAX_LEVELS-depth is below the pointer width or unchecked. False everywhere outside, where it panics or returns zeroed(depth): C24_elsewhere_2D; C24_refuted (u128 depth 0, debug) and C24_refuted_narrow (32-bit target) are concrete cases."
  },
  {
   "property": "C25",
   "status": "partial",
   "theorems": [
    "MortonRs.C25_exact_cells_3D",
    "MortonRs.C25_exact_position_3D",
    "MortonRs.C25_inexact_loses_levels_3D",
    "MortonRs.C25_refuted",
    "MortonRs.C25_static_grid_3D_partial"
   ],
   "note": "Proved at the exact depths (StaticGridExact: all of u8/u16, the deepest ones of the others). At every other depth the last level is lost: C25_inexact_loses_levels_3D; C25_refuted is a concrete case. C25_exact_cells_3D and C25_exact_position_3D give the exact result at every depth on every target."
  },
  {
   "property": "C26",
   "status": "proved",
   "theorems": [
    "MortonRs.C26_dynamic_grid_2D",
    "MortonRs.C26_dynamic_grid_3D"
   ],
   "note": "Round trip from an index for histories without stray bits."
  },
  {
   "property": "C27",
   "status": "proved",
   "theorems": [
    "MortonRs.C27_moving_in_the_grid_2D",
    "MortonRs.C27_moving_in_the_grid_3D"
   ],
   "note": ""
  },
  {
   "property": "C28",
   "status": "proved",
   "theorems": [
    "MortonRs.C28_cell_strings_2D",
    "MortonRs.C28_cell_strings_3D"
   ],
   "note": ""
  },
  {
   "property": "C29",
   "status": "proved",
   "theorems": [
    "MortonRs.C29_grid_strings_2D",
    "MortonRs.C29_grid_strings_3D"
   ],
   "note": ""
  },
  {
   "property": "C30",
   "status": "proved",
   "theorems": [
    "MortonRs.C30_orderings_2D",
    "MortonRs.C30_orderings_3D"
   ],
   "note": ""
  },
  {
   "property": "C31",
   "status": "proved",
   "theorems": [
    "MortonRs.C31_cell_comparisons_2D",
    "MortonRs.C31_cell_comparisons_3D",
    "MortonRs.C31_cell_numbers_2D",
    "MortonRs.C31_cell_numbers_3D"
   ],
   "note": ""
  },
  {
   "property": "C32",
   "status": "proved",
   "theorems": [
    "MortonRs.C32_conversions_2D",
    "MortonRs.C32_conversions_3D",
    "MortonRs.C32_round_trips_2D",
    "MortonRs.C32_round_trips_3D"
   ],
   "note": "Zero padding and == identities for histories without stray bits; everything else for all histories."
  },
  {
   "property": "C33",
   "status": "partial",
   "theorems": [
    "MortonRs.C33_any_bits_2D",
    "MortonRs.C33_any_bits_3D",
    "MortonRs.C33_big_endian_2D_partial",
    "MortonRs.C33_big_endian_3D_partial",
    "MortonRs.C33_dynamic_to_fixed_2D_partial",
    "MortonRs.C33_dynamic_to_fixed_3D_partial",
    "MortonRs.C33_exact_bits_2D",
    "MortonRs.C33_exact_bits_3D",
    "MortonRs.C33_exact_cells_2D",
    "MortonRs.C33_kept_iff_2D",
    "MortonRs.C33_kept_iff_3D",
    "MortonRs.C33_refuted",
    "MortonRs.C33_refuted_zeroed_2D"
   ],
   "note": "Error case and success case proved for all; cells are kept exactly when the byte count equals the integer size or all cells are Zero (little-endian), or when the path reads the same with its bytes reversed (big-endian, C33_big_endian_*); both equivalences for dynamic indices without stray bits. With stray bits C33_any_bits_* gives every bit of the result and, on little-endian targets, the equivalence; C33_kept_iff_* is an equivalence for every dynamic index and target. False in general: C33_refuted, C33_refuted_zeroed_2D."
  },
  {
   "property": "C34",
   "status": "proved",
   "theorems": [
    "MortonRs.C34_conversions_keep_cmp_2D",
    "MortonRs.C34_conversions_keep_cmp_3D",
    "MortonRs.C34_conversions_keep_order_2D",
    "MortonRs.C34_conversions_keep_order_3D",
    "MortonRs.C34_order_any_bits_3D"
   ],
   "note": "== for histories without stray bits here, for all histories in C109_conversions_*; cmp for all histories (3D fixed-depth with stray bits: C34_order_any_bits_3D)."
  },
  {
   "property": "C35",
   "status": "proved",
   "theorems": [
    "MortonRs.C35_integer_get_bits",
    "MortonRs.C35_integer_set_bits"
   ],
   "note": ""
  },
  {
   "property": "C36",
   "status": "partial",
   "theorems": [
    "MortonRs.C36_kept_iff",
    "MortonRs.C36_refuted",
    "MortonRs.C36_set_bits_stays_in_range_partial"
   ],
   "note": "Bits below the range and the range itself proved for every new value; the bits above are or-ed with the excess of the new value (exact formula). False as stated: C36_refuted; C36_kept_iff says exactly for which calls it holds."
  },
  {
   "property": "C37",
   "status": "proved",
   "theorems": [
    "MortonRs.C37_vec_get_bits_as_usize",
    "MortonRs.C37_vec_set_bits",
    "MortonRs.C37_vec_set_bits_from_usize"
   ],
   "note": "set_bits requires a non-empty new value."
  },
  {
   "property": "C38",
   "status": "partial",
   "theorems": [
    "MortonRs.C38_exact_iff",
    "MortonRs.C38_refuted",
    "MortonRs.C38_vec_get_bits_partial"
   ],
   "note": "Exact unless 0 < end%8 < start%8; there the exact wrong result is proved. False as stated: C38_refuted; C38_exact_iff says exactly for which calls it holds."
  },
  {
   "property": "C39",
   "status": "partial",
   "theorems": [
    "MortonRs.C39_exact_by_two",
    "MortonRs.C39_refuted",
    "MortonRs.C39_spread_by_three",
    "MortonRs.C39_spread_by_two_partial"
   ],
   "note": "Exact for documented inputs; by-three helpers for all inputs. The by-two helpers do not drop high bits: C39_refuted."
  },
  {
   "property": "C40",
   "status": "partial",
   "theorems": [
    "MortonRs.C40_align_to_partial",
    "MortonRs.C40_refuted"
   ],
   "note": "Exact domain in both build modes, and what happens outside. False as stated: C40_refuted."
  },
  {
   "property": "C41",
   "status": "partial",
   "theorems": [
    "MortonRs.C41_compare_2D",
    "MortonRs.C41_compare_3D_partial",
    "MortonRs.C41_compare_elements",
    "MortonRs.C41_display",
    "MortonRs.C41_display_2D",
    "MortonRs.C41_display_3D",
    "MortonRs.C41_display_exact_2D",
    "MortonRs.C41_display_exact_3D",
    "MortonRs.C41_eq_2D_partial",
    "MortonRs.C41_eq_3D_partial",
    "MortonRs.C41_refuted"
   ],
   "note": "Comparisons element by element: complete, for every type and value (C41_compare_elements); in terms of the cells as far as C14 and C16 go (C41_compare_*, C41_eq_*). Display: all histories; false as stated, since to_string(GridIndex) panics beyond the pointer width in builds with overflow checks (C41_refuted), and only there (C41_display_exact_2D/3D)."
  },
  {
   "property": "C42",
   "status": "proved",
   "theorems": [
    "MortonRs.C42_from_u8_slice"
   ],
   "note": ""
  },
  {
   "property": "C43",
   "status": "proved",
   "theorems": [
    "MortonRs.C43_programs_2D",
    "MortonRs.C43_programs_3D"
   ],
   "note": "Programs of any length; == on results only for histories without stray bits (NoEq otherwise)."
  },
  {
   "property": "C44",
   "status": "proved",
   "theorems": [
    "MortonRs.C44_no_undefined_behaviour_2D",
    "MortonRs.C44_no_undefined_behaviour_3D"
   ],
   "note": "Stronger than asked: arbitrary states, not only reachable ones; also no nontermination. Vec<u8> set_bits, an unsafe fn of the Bits trait, can be driven out of bounds by a too short new value (example in Props/Safety)."
  },
  {
   "property": "C45",
   "status": "proved",
   "theorems": [
    "MortonRs.C45_z_order_2D",
    "MortonRs.C45_z_order_3D"
   ],
   "note": ""
  },
  {
   "property": "C46",
   "status": "partial",
   "theorems": [
    "MortonRs.C46_dynamic_zeroed_2D_partial",
    "MortonRs.C46_dynamic_zeroed_3D",
    "MortonRs.C46_refuted",
    "MortonRs.C46_static_zeroed_2D",
    "MortonRs.C46_static_zeroed_3D"
   ],
   "note": "Static and 3D dynamic complete. 2D dynamic: path and cmp always, == exactly when the depth is not a multiple of four (equivalence proved). False as stated: C46_refuted."
  },
  {
   "property": "C47",
   "status": "partial",
   "theorems": [
    "MortonRs.C47_big_endian_stores_zero_2D",
    "MortonRs.C47_big_endian_stores_zero_3D",
    "MortonRs.C47_dynamic_cells_2D_partial",
    "MortonRs.C47_dynamic_cells_3D_partial",
    "MortonRs.C47_refuted"
   ],
   "note": "Reads do not depend on endianness; writes work on little-endian (and 16-bit) targets; on the others every write stores Zero (proved for all histories). False as stated: C47_refuted."
  },
  {
   "property": "C48",
   "status": "partial",
   "theorems": [
    "MortonRs.C48_defaults_2D",
    "MortonRs.C48_defaults_3D",
    "MortonRs.C48_refuted",
    "MortonRs.C48_root_2D_partial",
    "MortonRs.C48_root_3D_partial"
   ],
   "note": "Defaults complete. Root of every index: depth 0 and cmp Equal for all histories, == for 2D static indices and for histories without stray bits. False as stated: C48_refuted. Exactly when, for all histories: C109_root_2D/3D."
  },
  {
   "property": "C49",
   "status": "proved",
   "theorems": [
    "MortonRs.C49_fixed_raw_3D",
    "MortonRs.C49_static_raw_3D",
    "MortonRs.C49_unused_bits_matter_3D"
   ],
   "note": "C49_unused_bits_matter_3D shows that the condition on the unused bits is needed."
  },
  {
   "property": "C50",
   "status": "proved",
   "theorems": [
    "MortonRs.C50_write_back_restores_2D",
    "MortonRs.C50_write_back_restores_3D"
   ],
   "note": ""
  },
  {
   "property": "C51",
   "status": "proved",
   "theorems": [
    "MortonRs.C51_fixed_grid_16bit_3D",
    "MortonRs.C51_position_lost_16bit_3D"
   ],
   "note": "C51_position_lost_16bit_3D: the C22 statement fails on 16-bit targets."
  },
  {
   "property": "C52",
   "status": "proved",
   "theorems": [
    "MortonRs.C52_unchecked_accessors_2D",
    "MortonRs.C52_unchecked_accessors_3D"
   ],
   "note": ""
  },
  {
   "property": "C53",
   "status": "proved",
   "theorems": [
    "MortonRs.C53_bitmask_3D",
    "MortonRs.C53_max_depth_2D",
    "MortonRs.C53_max_depth_3D"
   ],
   "note": ""
  },
  {
   "property": "C54",
   "status": "proved",
   "theorems": [
    "MortonRs.C54_integer_conversions",
    "MortonRs.C54_vec_conversions",
    "MortonRs.C54_vec_from_u8_slice",
    "MortonRs.C54_write_bytes"
   ],
   "note": ""
  },
  {
   "property": "C55",
   "status": "proved",
   "theorems": [
    "MortonRs.C55_children_ordered_2D",
    "MortonRs.C55_children_ordered_3D",
    "MortonRs.C55_set_monotone_2D",
    "MortonRs.C55_set_monotone_3D",
    "MortonRs.C55_set_monotone_any_bits_3D"
   ],
   "note": "3D fixed-depth indices with stray bits: C55_set_monotone_any_bits_3D."
  },
  {
   "property": "C56",
   "status": "proved",
   "theorems": [
    "MortonRs.C56_ancestor_descendant_2D",
    "MortonRs.C56_ancestor_descendant_3D",
    "MortonRs.C56_ancestors_compose_2D",
    "MortonRs.C56_ancestors_compose_3D",
    "MortonRs.C56_descendants_compose_2D",
    "MortonRs.C56_descendants_compose_3D"
   ],
   "note": ""
  },
  {
   "property": "C57",
   "status": "proved",
   "theorems": [
    "MortonRs.C57_to_fixed_any_bits_3D",
    "MortonRs.C57_to_fixed_monotone_2D",
    "MortonRs.C57_to_fixed_monotone_3D"
   ],
   "note": "3D static indices with stray bits: C57_to_fixed_any_bits_3D, with the one exception and a case of it."
  },
  {
   "property": "C58",
   "status": "proved",
   "theorems": [
    "MortonRs.C58_conversions_commute_2D",
    "MortonRs.C58_conversions_commute_3D"
   ],
   "note": ""
  },
  {
   "property": "C59",
   "status": "partial",
   "theorems": [
    "MortonRs.C59_elsewhere_2D",
    "MortonRs.C59_exact_3D",
    "MortonRs.C59_grid_constructors_agree_2D",
    "MortonRs.C59_grid_constructors_agree_3D_partial"
   ],
   "note": "2D: MAX_LEVELS <= pointer width and the shift MAX_LEVELS-depth below the pointer width or unchecked. 3D: depths at which the static constructor keeps all levels (StaticGridExact); false elsewhere by C25. Exactly when, at every depth and on every target: C59_exact_3D, C59_elsewhere_2D."
  },
  {
   "property": "C60",
   "status": "proved",
   "theorems": [
    "MortonRs.C60_debug_release_2D",
    "MortonRs.C60_debug_release_3D",
    "MortonRs.C60_debug_release_bits",
    "MortonRs.C60_debug_release_programs"
   ],
   "note": "Stronger than a refinement of values: panics other than overflow are preserved too."
  },
  {
   "property": "C61",
   "status": "proved",
   "theorems": [
    "MortonRs.C61_interchangeable_2D",
    "MortonRs.C61_interchangeable_3D"
   ],
   "note": ""
  },
  {
   "property": "C62",
   "status": "proved",
   "theorems": [
    "MortonRs.C62_eq_is_equivalence",
    "MortonRs.C62_eq_is_sound_2D",
    "MortonRs.C62_eq_is_sound_3D"
   ],
   "note": ""
  },
  {
   "property": "C63",
   "status": "proved",
   "theorems": [
    "MortonRs.C63_round_trips_2D",
    "MortonRs.C63_round_trips_3D"
   ],
   "note": ""
  },
  {
   "property": "C64",
   "status": "proved",
   "theorems": [
    "MortonRs.C64_fixed_order_all_bits_3D"
   ],
   "note": ""
  },
  {
   "property": "C65",
   "status": "proved",
   "theorems": [
    "MortonRs.C65_walk_2D",
    "MortonRs.C65_walk_3D"
   ],
   "note": ""
  },
  {
   "property": "C66",
   "status": "proved",
   "theorems": [
    "MortonRs.C66_order_any_bits_3D",
    "MortonRs.C66_order_is_z_order_2D",
    "MortonRs.C66_order_is_z_order_3D"
   ],
   "note": "3D fixed depth with stray bits: C66_order_any_bits_3D."
  },
  {
   "property": "C67",
   "status": "proved",
   "theorems": [
    "MortonRs.C67_subtree_is_box_2D",
    "MortonRs.C67_subtree_is_box_3D"
   ],
   "note": ""
  },
  {
   "property": "C68",
   "status": "proved",
   "theorems": [
    "MortonRs.C68_orderings_rename_axes_2D",
    "MortonRs.C68_orderings_rename_axes_3D"
   ],
   "note": ""
  },
  {
   "property": "C69",
   "status": "proved",
   "theorems": [
    "MortonRs.C69_sorted_is_tree_2D",
    "MortonRs.C69_sorted_is_tree_3D"
   ],
   "note": ""
  },
  {
   "property": "C70",
   "status": "proved",
   "theorems": [
    "MortonRs.C70_write_moves_in_grid_2D",
    "MortonRs.C70_write_moves_in_grid_3D"
   ],
   "note": ""
  },
  {
   "property": "C71",
   "status": "proved",
   "theorems": [
    "MortonRs.C71_inverted_mirrors_grid_2D",
    "MortonRs.C71_inverted_mirrors_grid_3D"
   ],
   "note": ""
  },
  {
   "property": "C72",
   "status": "proved",
   "theorems": [
    "MortonRs.C72_descendant_grid_2D",
    "MortonRs.C72_descendant_grid_3D"
   ],
   "note": ""
  },
  {
   "property": "C73",
   "status": "proved",
   "theorems": [
    "MortonRs.C73_cell_number_message",
    "MortonRs.C73_messages_2D",
    "MortonRs.C73_messages_3D",
    "MortonRs.C73_messages_distinct"
   ],
   "note": "from_grid_index may also panic or overflow; the claim is about returned errors."
  },
  {
   "property": "C74",
   "status": "proved",
   "theorems": [
    "MortonRs.C74_subtree_range_2D",
    "MortonRs.C74_subtree_range_3D"
   ],
   "note": ""
  },
  {
   "property": "C75",
   "status": "proved",
   "theorems": [
    "MortonRs.C75_prefix_range_2D",
    "MortonRs.C75_prefix_range_3D",
    "MortonRs.C75_prefix_range_any_bits_3D"
   ],
   "note": "3D: the plain range without stray bits; C75_prefix_range_any_bits_3D is the exact statement with them."
  },
  {
   "property": "C76",
   "status": "partial",
   "theorems": [
    "MortonRs.C76_integer_reads_partial",
    "MortonRs.C76_integer_writes_partial",
    "MortonRs.C76_refuted",
    "MortonRs.C76_release_builds",
    "MortonRs.C76_start_wraps",
    "MortonRs.C76_vec_first_fault",
    "MortonRs.C76_vec_panics_partial",
    "MortonRs.C76_vec_short_value",
    "MortonRs.C76_vec_usize_reads",
    "MortonRs.C76_vec_usize_value"
   ],
   "note": "False in release builds: an integer write that starts behind the last bit overwrites the bits at the start modulo the width, and a range longer than the word reads zero and clears nothing (C76_refuted; C76_release_builds is the exact behaviour). A start of 2^width or more wraps (C76_start_wraps). A too short value written past the end of a vector can be undefined behaviour instead of a panic (C76_vec_first_fault says when). Proved: vectors with long enough values, integers in debug builds and, in release builds, ranges not longer than the word with writes starting inside it. usize reads of vectors with more bits than a usize: C76_vec_usize_reads, which says which fault comes first, and that release builds do not report such a range inside the vector; C76_vec_usize_value is the value they return."
  },
  {
   "property": "C77",
   "status": "proved",
   "theorems": [
    "MortonRs.C77_common_ancestors_2D",
    "MortonRs.C77_common_ancestors_3D"
   ],
   "note": ""
  },
  {
   "property": "C78",
   "status": "proved",
   "theorems": [
    "MortonRs.C78_debug_text_2D",
    "MortonRs.C78_debug_text_3D",
    "MortonRs.C78_debug_text_enums",
    "MortonRs.C78_pretty_text_2D",
    "MortonRs.C78_pretty_text_3D",
    "MortonRs.C78_pretty_text_enums"
   ],
   "note": "{:?} and {:#?}, written to a formatter that does not fail."
  },
  {
   "property": "C79",
   "status": "proved",
   "theorems": [
    "MortonRs.C79_release_2D",
    "MortonRs.C79_release_3D",
    "MortonRs.C79_release_dynamic_2D",
    "MortonRs.C79_release_dynamic_3D",
    "MortonRs.C79_unchecked_beyond_depth_2D",
    "MortonRs.C79_unchecked_beyond_depth_3D"
   ],
   "note": "C79_release_* give the exact result of a read or write beyond the capacity without overflow checks."
  },
  {
   "property": "C80",
   "status": "proved",
   "theorems": [
    "MortonRs.C80_bits_2D",
    "MortonRs.C80_bits_3D",
    "MortonRs.C80_layout_2D",
    "MortonRs.C80_layout_3D",
    "MortonRs.C80_navigation_2D",
    "MortonRs.C80_navigation_3D",
    "MortonRs.C80_order_2D",
    "MortonRs.C80_order_3D",
    "MortonRs.C80_provided_methods",
    "MortonRs.C80_unused_bits_split_order_and_equality"
   ],
   "note": "Edited storages that differ in unused bits are Equal but not == (C80_unused_bits_split_order_and_equality)."
  },
  {
   "property": "C81",
   "status": "partial",
   "theorems": [
    "MortonRs.C81_bytes_2D",
    "MortonRs.C81_bytes_3D_partial",
    "MortonRs.C81_bytes_3D_refuted",
    "MortonRs.C81_integers_2D",
    "MortonRs.C81_integers_3D"
   ],
   "note": "False for 3D reads of byte vectors with the fixed-depth and static storage types: a level across a byte boundary reads leaked bits and panics (C81_bytes_3D_refuted); C81_bytes_3D_partial says exactly when. Everything else is proved."
  },
  {
   "property": "C82",
   "status": "proved",
   "theorems": [
    "MortonRs.C82_programs_2D",
    "MortonRs.C82_programs_3D"
   ],
   "note": "Calls outside the ranges given by C21-C26, C33, C46, C49 are the subject of those properties. Scope .canonical: no stray bits; scope .all: any stray bits, without the calls that show them (rules2D, rules3D)."
  },
  {
   "property": "C83",
   "status": "proved",
   "theorems": [
    "MortonRs.C83_access_2D",
    "MortonRs.C83_access_3D",
    "MortonRs.C83_crate_storages_2D",
    "MortonRs.C83_crate_storages_3D",
    "MortonRs.C83_grid_2D",
    "MortonRs.C83_grid_3D",
    "MortonRs.C83_grid_navigation_2D",
    "MortonRs.C83_grid_navigation_3D",
    "MortonRs.C83_navigation_2D",
    "MortonRs.C83_navigation_3D",
    "MortonRs.C83_order_2D",
    "MortonRs.C83_order_3D",
    "MortonRs.C83_programs_2D",
    "MortonRs.C83_programs_3D",
    "MortonRs.C83_strings_2D",
    "MortonRs.C83_strings_3D"
   ],
   "note": "The contract is the hypothesis. The sets on which the storages of the crate keep it (C83_crate_storages_*): every history for 2D fixed-depth and static storages, histories without stray bits for the others, dynamic ones where their writes work (C47). Iteration is by CellIter, which only the storages of the crate hand out."
  },
  {
   "property": "C84",
   "status": "proved",
   "theorems": [
    "MortonRs.C84_bytes_2D",
    "MortonRs.C84_bytes_3D",
    "MortonRs.C84_bytes_big_endian_2D",
    "MortonRs.C84_bytes_big_endian_3D",
    "MortonRs.C84_containers",
    "MortonRs.C84_conversions_2D",
    "MortonRs.C84_conversions_3D",
    "MortonRs.C84_exact_cells_3D",
    "MortonRs.C84_exact_grid_2D",
    "MortonRs.C84_exact_position_3D",
    "MortonRs.C84_fixed_constructors_2D",
    "MortonRs.C84_fixed_constructors_3D",
    "MortonRs.C84_fixed_grid_2D",
    "MortonRs.C84_fixed_grid_3D",
    "MortonRs.C84_hash_2D",
    "MortonRs.C84_hash_3D",
    "MortonRs.C84_native_2D",
    "MortonRs.C84_native_3D",
    "MortonRs.C84_native_storages_2D",
    "MortonRs.C84_native_storages_3D",
    "MortonRs.C84_raw_3D",
    "MortonRs.C84_static_constructors_2D",
    "MortonRs.C84_static_constructors_3D",
    "MortonRs.C84_static_grid_2D",
    "MortonRs.C84_static_grid_3D",
    "MortonRs.C84_storages_2D",
    "MortonRs.C84_storages_3D"
   ],
   "note": "Dynamic to fixed depth: C84_bytes_* for little-endian, C84_bytes_big_endian_* for big-endian targets, from dynamic indices without stray bits. Static indices: at most 255 levels, since their depth is a u8. The contract is the hypothesis. Grid positions within the limits of C21-C25, which belong to the code and not to the container; C84_exact_* say what happens beyond them."
  },
  {
   "property": "C85",
   "status": "partial",
   "theorems": [
    "MortonRs.C85_conversions_2D",
    "MortonRs.C85_conversions_3D",
    "MortonRs.C85_descendant_2D",
    "MortonRs.C85_descendant_3D",
    "MortonRs.C85_grid_2D",
    "MortonRs.C85_grid_3D",
    "MortonRs.C85_grid_release_2D",
    "MortonRs.C85_grid_release_3D",
    "MortonRs.C85_kept_2D",
    "MortonRs.C85_kept_3D",
    "MortonRs.C85_refuted_2D",
    "MortonRs.C85_refuted_3D",
    "MortonRs.C85_storages_2D_partial",
    "MortonRs.C85_storages_3D_partial",
    "MortonRs.C85_try_from_2D",
    "MortonRs.C85_try_from_3D"
   ],
   "note": "False from 256 levels on, since the depth is a u8 (C85_refuted_2D, _3D). C85_storages_*_partial: the contracts of C83 below 256 levels. C85_try_from, _descendant, _conversions, _grid: exactly what happens otherwise (_grid: from_grid_index with overflow checks, _grid_release: without, containers of at most 2^32 bits whose loop counters fit a usize; 2D: a whole number of bytes). C85_kept: what holds whatever the size."
  },
  {
   "property": "C86",
   "status": "proved",
   "theorems": [
    "MortonRs.C86_cells",
    "MortonRs.C86_integers",
    "MortonRs.C86_integers_dynamic",
    "MortonRs.C86_integers_wide",
    "MortonRs.C86_max_levels",
    "MortonRs.C86_refuted_nine_dimensions",
    "MortonRs.C86_vectors",
    "MortonRs.C86_vectors_dynamic",
    "MortonRs.C86_vectors_dynamic_reads",
    "MortonRs.C86_vectors_reads",
    "MortonRs.C86_vectors_writes"
   ],
   "note": "The contract of Dimension is the hypothesis. The limit of eight dimensions is part of the statement (C86_integers is an equivalence, C86_refuted_nine_dimensions a witness beyond it). On byte vectors C86_vectors_reads and C86_vectors_writes give the exact result in every dimension, C86_vectors the dimensions without a defect."
  },
  {
   "property": "C87",
   "status": "proved",
   "theorems": [
    "MortonRs.C87_cells",
    "MortonRs.C87_inverted",
    "MortonRs.C87_navigation"
   ],
   "note": "The contract of the required methods is the hypothesis; implementations may also override the provided methods, about which nothing is claimed."
  },
  {
   "property": "C88",
   "status": "proved",
   "theorems": [
    "MortonRs.C88_crate_types",
    "MortonRs.C88_crate_types_vectors",
    "MortonRs.C88_storages"
   ],
   "note": "The contracts are hypotheses; the storage types of the crate keep them within the limits of C86 (C88_crate_types)."
  },
  {
   "property": "C89",
   "status": "proved",
   "theorems": [
    "MortonRs.C89_hash_cells",
    "MortonRs.C89_hash_input_2D",
    "MortonRs.C89_hash_input_3D",
    "MortonRs.C89_hash_lists",
    "MortonRs.C89_hash_other_containers"
   ],
   "note": "The data are the sequence of calls of the hasher; what the hasher makes of them is not modelled."
  },
  {
   "property": "C90",
   "status": "partial",
   "theorems": [
    "MortonRs.C90_order_any_bits_3D",
    "MortonRs.C90_order_by_corner_2D",
    "MortonRs.C90_order_by_corner_3D_partial",
    "MortonRs.C90_refuted_stray_bits_3D"
   ],
   "note": "False of 3D fixed-depth indices with stray bits (C90_refuted_stray_bits_3D), whose order is by the corner and then by the remaining bits (C90_order_any_bits_3D). Everything else is proved."
  },
  {
   "property": "C91",
   "status": "proved",
   "theorems": [
    "MortonRs.C91_nested_or_disjoint_2D",
    "MortonRs.C91_nested_or_disjoint_3D",
    "MortonRs.C91_tiles_2D",
    "MortonRs.C91_tiles_3D"
   ],
   "note": "Static and dynamic indices; fixed-depth indices have one depth, for which this is C21 and C22. Making dynamic indices needs working writes (C47)."
  },
  {
   "property": "C92",
   "status": "proved",
   "theorems": [
    "MortonRs.C92_string_order_2D",
    "MortonRs.C92_string_order_3D",
    "MortonRs.C92_string_order_any_bits_3D",
    "MortonRs.C92_string_prefix_2D",
    "MortonRs.C92_string_prefix_3D"
   ],
   "note": "3D fixed-depth indices with stray bits: C92_string_order_any_bits_3D. str comparison is over the UTF-8 bytes of the strings."
  },
  {
   "property": "C93",
   "status": "proved",
   "theorems": [
    "MortonRs.C93_shared_ancestors_2D",
    "MortonRs.C93_shared_ancestors_3D",
    "MortonRs.C93_steps_2D",
    "MortonRs.C93_steps_3D",
    "MortonRs.C93_steps_any_bits_2D",
    "MortonRs.C93_steps_any_bits_3D"
   ],
   "note": "C93_steps_any_bits_*: steps from indices with stray bits. Steps only at the depths at which from_grid_index keeps every level; at the others C24_refuted, C25_inexact_loses_levels_3D and C51 say what happens."
  },
  {
   "property": "C94",
   "status": "proved",
   "theorems": [
    "MortonRs.C94_bottom_up_2D",
    "MortonRs.C94_bottom_up_3D"
   ],
   "note": "dedupAdjacent is a specification of Vec::dedup_by, which is not part of the crate."
  },
  {
   "property": "C95",
   "status": "proved",
   "theorems": [
    "MortonRs.C95_point_location_2D",
    "MortonRs.C95_point_location_3D"
   ],
   "note": "Static and dynamic indices; fixed-depth indices have one depth."
  },
  {
   "property": "C96",
   "status": "proved",
   "theorems": [
    "MortonRs.C96_leaves_fill_2D",
    "MortonRs.C96_leaves_fill_3D"
   ],
   "note": "Static and dynamic indices. The converse needs indices of depth L to exist: L within the capacity of the static storage; for dynamic indices, a length the target can address and working writes (C47)."
  },
  {
   "property": "C97",
   "status": "proved",
   "theorems": [
    "MortonRs.C97_window_corners_2D",
    "MortonRs.C97_window_corners_3D",
    "MortonRs.C97_window_corners_any_bits_3D",
    "MortonRs.C97_window_query_2D",
    "MortonRs.C97_window_query_3D"
   ],
   "note": "The window test is computed on unbounded integers. Queries with dynamic indices need working writes (C47). Corners of 3D fixed-depth indices with stray bits: C97_window_corners_any_bits_3D."
  },
  {
   "property": "C98",
   "status": "proved",
   "theorems": [
    "MortonRs.C98_counting_2D",
    "MortonRs.C98_counting_3D",
    "MortonRs.C98_counting_any_bits_3D",
    "MortonRs.C98_raw_number_3D"
   ],
   "note": "Counting with dynamic indices needs working writes (C47); 3D fixed-depth indices with stray bits: C98_counting_any_bits_3D."
  },
  {
   "property": "C99",
   "status": "proved",
   "theorems": [
    "MortonRs.C99_morton_code_2D",
    "MortonRs.C99_morton_code_3D",
    "MortonRs.C99_raw_code_3D"
   ],
   "note": "Depths up to the width of usize, beyond which to_grid_index cannot hold the position (C20)."
  },
  {
   "property": "C100",
   "status": "proved",
   "theorems": [
    "MortonRs.C100_stackless_2D",
    "MortonRs.C100_stackless_3D"
   ],
   "note": "Static and dynamic indices, which have children. Dynamic indices need working writes (C47)."
  },
  {
   "property": "C101",
   "status": "proved",
   "theorems": [
    "MortonRs.C101_encodes_2D",
    "MortonRs.C101_encodes_3D",
    "MortonRs.C101_sorts_by_code_2D",
    "MortonRs.C101_sorts_by_code_3D",
    "MortonRs.C101_sorts_by_code_any_bits_3D"
   ],
   "note": "The constructors: only at the depths at which they keep every level; at the others C24, C25 and C51 say what happens. Depths up to the width of usize. 3D fixed-depth indices with stray bits: C101_sorts_by_code_any_bits_3D."
  },
  {
   "property": "C102",
   "status": "proved",
   "theorems": [
    "MortonRs.C102_nested_2D",
    "MortonRs.C102_nested_3D",
    "MortonRs.C102_points_2D",
    "MortonRs.C102_points_3D",
    "MortonRs.C102_points_any_bits_3D"
   ],
   "note": "The grid index of the point is calculated exactly by the caller: rounding in floating point is not modelled. Depths up to the width of usize at which the constructors keep every level. 3D fixed-depth indices with stray bits: C102_points_any_bits_3D."
  },
  {
   "property": "C103",
   "status": "proved",
   "theorems": [
    "MortonRs.C103_overlaps_2D",
    "MortonRs.C103_overlaps_3D"
   ],
   "note": "Static and dynamic indices. The test of being in a subtree is the caller's, by with_depth and cmp."
  },
  {
   "property": "C104",
   "status": "proved",
   "theorems": [
    "MortonRs.C104_refine_2D",
    "MortonRs.C104_refine_3D",
    "MortonRs.C104_replace_2D",
    "MortonRs.C104_replace_3D"
   ],
   "note": "Static and dynamic indices, which have children. Making the children of dynamic indices needs working writes (C47) and a depth the target can address."
  },
  {
   "property": "C105",
   "status": "proved",
   "theorems": [
    "MortonRs.C105_complete_2D",
    "MortonRs.C105_complete_3D",
    "MortonRs.C105_subdivide_2D",
    "MortonRs.C105_subdivide_3D"
   ],
   "note": "Static and dynamic indices, which have children; the last level must fit. The walk is client code around child. Dynamic indices need working writes (C47)."
  },
  {
   "property": "C106",
   "status": "proved",
   "theorems": [
    "MortonRs.C106_fold_2D",
    "MortonRs.C106_fold_3D",
    "MortonRs.C106_rebuild_2D",
    "MortonRs.C106_rebuild_3D"
   ],
   "note": "Iterator::fold and collect are those of the standard library, written out over next(). Into dynamic indices: working writes (C47) and a depth the target can address."
  },
  {
   "property": "C107",
   "status": "proved",
   "theorems": [
    "MortonRs.C107_regions_2D",
    "MortonRs.C107_regions_3D"
   ],
   "note": "Static and dynamic indices. The three algorithms are client code; the tests of being in a subtree and of being smaller are the library's with_depth, cmp and <. The difference needs child: the deepest level must fit, and dynamic indices need working writes (C47)."
  },
  {
   "property": "C108",
   "status": "proved",
   "theorems": [
    "MortonRs.C108_big_endian_refuted",
    "MortonRs.C108_conversion_tests_2D",
    "MortonRs.C108_conversion_tests_3D",
    "MortonRs.C108_dynamic_tests_2D",
    "MortonRs.C108_dynamic_tests_3D",
    "MortonRs.C108_fixed_tests_2D",
    "MortonRs.C108_fixed_tests_3D",
    "MortonRs.C108_narrow_targets_2D",
    "MortonRs.C108_narrow_targets_3D",
    "MortonRs.C108_static_tests_2D",
    "MortonRs.C108_static_tests_3D"
   ],
   "note": "The test functions are modelled as programs over the drawn cells; rand and the test runner are not. The grid tests are stated under a condition on the width of usize, the dynamic types under working writes (C47), the conversions for little endian. C108_narrow_targets_2D, C108_narrow_targets_3D and C108_big_endian_refuted show that the conditions are needed."
  },
  {
   "property": "C109",
   "status": "proved",
   "theorems": [
    "MortonRs.C109_conversions_2D",
    "MortonRs.C109_conversions_3D",
    "MortonRs.C109_equality_2D",
    "MortonRs.C109_equality_3D",
    "MortonRs.C109_root_2D",
    "MortonRs.C109_root_3D",
    "MortonRs.C109_round_trips_2D",
    "MortonRs.C109_round_trips_3D",
    "MortonRs.C109_unspoiled_2D",
    "MortonRs.C109_unspoiled_3D"
   ],
   "note": "All histories. Round trips of dynamic indices and the unspoiled dynamic indices: under DynWrites (C47). Levels and cells are those of get_cell_at_level_unchecked; the capacity and the remaining bits are read off bits()."
  },
  {
   "property": "C110",
   "status": "proved",
   "theorems": [
    "MortonRs.C110_hash_maps_2D",
    "MortonRs.C110_hash_maps_3D",
    "MortonRs.C110_hash_maps_any",
    "MortonRs.C110_sorted_maps_2D",
    "MortonRs.C110_sorted_maps_3D",
    "MortonRs.C110_spoiled_keys"
   ],
   "note": "The maps are small programs written against Hash, Eq and Ord; the code of the standard library is not modelled. Keys with stray bits: C110_hash_maps_any, the second part of C110_sorted_maps_3D and C110_spoiled_keys."
  },
  {
   "property": "C111",
   "status": "proved",
   "theorems": [
    "MortonRs.C111_grid_text_2D",
    "MortonRs.C111_grid_text_3D",
    "MortonRs.C111_load_exactly_2D",
    "MortonRs.C111_load_exactly_3D",
    "MortonRs.C111_round_trip_2D",
    "MortonRs.C111_round_trip_3D"
   ],
   "note": "The parsers of the standard library (char::to_digit, str::split, usize::from_str) are modelled as client code. Grid index strings: into dynamic indices, C111_grid_text_2D and C111_grid_text_3D."
  },
  {
   "property": "C112",
   "status": "proved",
   "theorems": [
    "MortonRs.C112_walk_up_2D",
    "MortonRs.C112_walk_up_3D"
   ],
   "note": "successors(Some(m), |m| m.parent()).take(n) is client code; n is arbitrary, so that the theorem also says where the walk ends."
  },
  {
   "property": "C113",
   "status": "proved",
   "theorems": [
    "MortonRs.C113_move_subtree_2D",
    "MortonRs.C113_move_subtree_3D"
   ],
   "note": "Moving a node is client code around get_cell_at_level and descendant."
  },
  {
   "property": "C114",
   "status": "proved",
   "theorems": [
    "MortonRs.C114_map_cells_2D",
    "MortonRs.C114_map_cells_3D",
    "MortonRs.C114_maps_exist_2D",
    "MortonRs.C114_maps_exist_3D",
    "MortonRs.C114_symmetries_2D",
    "MortonRs.C114_symmetries_3D"
   ],
   "note": "The loop over the cells is client code. The symmetry is a hypothesis on the map of single cells, stated with the documented coordinates of cells; C114_maps_exist_2D and C114_maps_exist_3D show that there is such a map for each symmetry."
  },
  {
   "property": "C115",
   "status": "proved",
   "theorems": [
    "MortonRs.C115_gaps_2D",
    "MortonRs.C115_gaps_3D"
   ],
   "note": "The walk is client code; below and less may be any functions that decide InSubtree and <. The common ancestor to start from may be the root."
  },
  {
   "property": "C116",
   "status": "proved",
   "theorems": [
    "MortonRs.C116_radix_sort_2D",
    "MortonRs.C116_radix_sort_3D",
    "MortonRs.C116_radix_sort_any_bits_3D"
   ],
   "note": "The passes are client code. 3D fixed-depth indices with stray bits: C116_radix_sort_any_bits_3D."
  },
  {
   "property": "C117",
   "status": "proved",
   "theorems": [
    "MortonRs.C117_nearest_2D",
    "MortonRs.C117_nearest_3D"
   ],
   "note": "The search and the distance to a box are client code; distances are calculated exactly (squares of natural numbers). below may be any function that decides InSubtree."
  },
  {
   "property": "C118",
   "status": "proved",
   "theorems": [
    "MortonRs.C118_shared_levels_2D",
    "MortonRs.C118_shared_levels_3D"
   ],
   "note": "Counting the shared levels is client code."
  },
  {
   "property": "C119",
   "status": "proved",
   "theorems": [
    "MortonRs.C119_front_to_back_2D",
    "MortonRs.C119_front_to_back_3D",
    "MortonRs.C119_orders_exist_2D",
    "MortonRs.C119_orders_exist_3D"
   ],
   "note": "The subdivision is client code, with the children in any suitable order; C119_orders_exist_2D and C119_orders_exist_3D show that the order by try_from(i ^ n) is one, for all orderings and directions (a finite case analysis)."
  },
  {
   "property": "C120",
   "status": "proved",
   "theorems": [
    "MortonRs.C120_location_codes_2D",
    "MortonRs.C120_location_codes_3D"
   ],
   "note": "The loops that make and read codes are client code; additions and multiplications are those of usize, and are shown not to overflow."
  },
  {
   "property": "C121",
   "status": "proved",
   "theorems": [
    "MortonRs.C121_touching_2D",
    "MortonRs.C121_touching_3D"
   ],
   "note": "The node beside x is any index at that place; C93 shows how from_grid_index makes it. The search is partition_point of the standard library, described by its result."
  },
  {
   "property": "C122",
   "status": "proved",
   "theorems": [
    "MortonRs.C122_differences_2D",
    "MortonRs.C122_differences_3D"
   ],
   "note": "Both loops are client code; sharedLevels is that of C118."
  },
  {
   "property": "C123",
   "status": "proved",
   "theorems": [
    "MortonRs.C123_enclosing_2D",
    "MortonRs.C123_enclosing_3D"
   ],
   "note": "The pass is client code; below is any test that decides the relation of C69."
  },
  {
   "property": "C124",
   "status": "proved",
   "theorems": [
    "MortonRs.C124_jumps_2D",
    "MortonRs.C124_jumps_3D"
   ],
   "note": "The descent and the search are client code; the test against the window is that of C97."
  },
  {
   "property": "C125",
   "status": "proved",
   "theorems": [
    "MortonRs.C125_locates_all_2D",
    "MortonRs.C125_locates_all_3D"
   ],
   "note": "The pass is client code; le and below are any tests that decide <= and the relation of C69."
  },
  {
   "property": "C126",
   "status": "proved",
   "theorems": [
    "MortonRs.C126_merges_2D",
    "MortonRs.C126_merges_3D"
   ],
   "note": "The pass is client code; places are lists of cells, and a node covers those that begin with its cells."
  },
  {
   "property": "C127",
   "status": "proved",
   "theorems": [
    "MortonRs.C127_grid_xor_2D",
    "MortonRs.C127_grid_xor_3D"
   ],
   "note": "The computation is client code; leading_zeros is modelled by the length of the binary number."
  },
  {
   "property": "C128",
   "status": "proved",
   "theorems": [
    "MortonRs.C128_carry_2D",
    "MortonRs.C128_carry_3D"
   ],
   "note": "The loop is client code over get_cell_at_level and set_cell_at_level; the flipped cell comes from index and try_from of the cell types."
  },
  {
   "property": "C129",
   "status": "proved",
   "theorems": [
    "MortonRs.C129_balance_2D",
    "MortonRs.C129_balance_3D"
   ],
   "note": "The check is client code; the binary search is modelled by its result, the leaves <= the neighbour. What touching means is defined through positions of the finest grid (C121)."
  },
  {
   "property": "C130",
   "status": "proved",
   "theorems": [
    "MortonRs.C130_box_steps_2D",
    "MortonRs.C130_box_steps_3D"
   ],
   "note": "The loop is that of C128, client code over get_cell_at_level and set_cell_at_level."
  },
  {
   "property": "C131",
   "status": "proved",
   "theorems": [
    "MortonRs.C131_balancing_2D",
    "MortonRs.C131_balancing_3D"
   ],
   "note": "The loop is client code; the binary search is modelled by its result as in C129. The loop takes a number of rounds, and some number is proved to be enough."
  },
  {
   "property": "C132",
   "status": "proved",
   "theorems": [
    "MortonRs.C132_balanced_alike_2D",
    "MortonRs.C132_balanced_alike_3D"
   ],
   "note": "The loops are the client code of C131."
  },
  {
   "property": "C133",
   "status": "proved",
   "theorems": [
    "MortonRs.C133_beside_balanced_2D",
    "MortonRs.C133_beside_balanced_3D"
   ],
   "note": "The list of nodes is made by client code; touching is defined through positions of the finest grid (C121), balance as in C129."
  },
  {
   "property": "C134",
   "status": "proved",
   "theorems": [
    "MortonRs.C134_any_order_2D",
    "MortonRs.C134_any_order_3D"
   ],
   "note": "A relation for client code that splits leaves; that the choice is made by comparing positions is not part of it."
  },
  {
   "property": "C135",
   "status": "proved",
   "theorems": [
    "MortonRs.C135_few_beside_2D",
    "MortonRs.C135_few_beside_3D"
   ],
   "note": "Touching is defined through positions of the finest grid (C121), balance as in C129. The example shows that two is reached in 2D; that four is reached in 3D is not stated."
  }
 ]
}