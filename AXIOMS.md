# Axioms of every manifest theorem

Made by `python3 tools/axioms.py` from `#print axioms`.

## none (1 theorems)

* `Pyodrx.Props.C33_collision`

## propext (15 theorems)

* `Pyodrx.Props.C10_error`
* `Pyodrx.Props.C10_fixed_iff`
* `Pyodrx.Props.C27_normal_roads`
* `Pyodrx.Props.C27_unlinked`
* `Pyodrx.Props.C27_missing_end`
* `Pyodrx.Props.C27_id_types`
* `Pyodrx.Props.C32_readding`
* `Pyodrx.Props.C40_appends`
* `Pyodrx.Props.C41_line_values`
* `Pyodrx.Props.C41_other_types`
* `Pyodrx.Props.C45_no_length`
* `Pyodrx.Props.C53_end_to_end`
* `Pyodrx.Props.C53_start_to_start`
* `Pyodrx.Props.C58_dependency`
* `Pyodrx.Props.C60_poly`

## propext, Classical.choice, Quot.sound (345 theorems)

* `Pyodrx.Props.C01_line_end`
* `Pyodrx.Props.C01_line_inverse`
* `Pyodrx.Props.C02_arc_length`
* `Pyodrx.Props.C02_arc_angle`
* `Pyodrx.Props.C03_arc_history_length`
* `Pyodrx.Props.C03_arc_history_angle`
* `Pyodrx.Props.C03_arc_history_wrong_sign`
* `Pyodrx.Props.C04_arc_inverse`
* `Pyodrx.Props.C04_length_known`
* `Pyodrx.Props.C04_arc_inverse_fresh_angle`
* `Pyodrx.Props.C05_spiral_end`
* `Pyodrx.Props.C05_curvature`
* `Pyodrx.Props.C06_spiral_inverse`
* `Pyodrx.Props.C07_spiral_args`
* `Pyodrx.Props.C07_spiral_length`
* `Pyodrx.Props.C07_spiral_cdot`
* `Pyodrx.Props.C07_spiral_angle`
* `Pyodrx.Props.C07_spiral_angle_exact`
* `Pyodrx.Props.C08_poly_end`
* `Pyodrx.Props.C08_heading_is_tangent`
* `Pyodrx.Props.C09_poly_start`
* `Pyodrx.Props.C09_witness`
* `Pyodrx.Props.C09_distance`
* `Pyodrx.Props.C11_forward`
* `Pyodrx.Props.C11_chained`
* `Pyodrx.Props.C11_only_if`
* `Pyodrx.Props.C12_backward`
* `Pyodrx.Props.C12_only_if`
* `Pyodrx.Props.C12_poly`
* `Pyodrx.Props.C13_backward_s`
* `Pyodrx.Props.C13_forward_s`
* `Pyodrx.Props.C13_single`
* `Pyodrx.Props.C14_rigid`
* `Pyodrx.Props.C15_network_again`
* `Pyodrx.Props.C15_network_twice`
* `Pyodrx.Props.C15_planview_twice`
* `Pyodrx.Props.C16_witness`
* `Pyodrx.Props.C17_bound`
* `Pyodrx.Props.C17_no_infinite_run`
* `Pyodrx.Props.C17_run`
* `Pyodrx.Props.C18_placed_once`
* `Pyodrx.Props.C18_only_placement`
* `Pyodrx.Props.C19_connected_with_offset`
* `Pyodrx.Props.C19_linked_roads_meet`
* `Pyodrx.Props.C20_succeeds_iff`
* `Pyodrx.Props.C20_otherwise`
* `Pyodrx.Props.C20_order`
* `Pyodrx.Props.C21_offset`
* `Pyodrx.Props.C21_shift`
* `Pyodrx.Props.C22_fixed_roads`
* `Pyodrx.Props.C22_given_start`
* `Pyodrx.Props.C22_first_road`
* `Pyodrx.Props.C23_key_error`
* `Pyodrx.Props.C23_unbound_local`
* `Pyodrx.Props.C23_unresolvable_raises`
* `Pyodrx.Props.C24_links`
* `Pyodrx.Props.C24_next_call`
* `Pyodrx.Props.C24_first_wins`
* `Pyodrx.Props.C24_emitted`
* `Pyodrx.Props.C25_links`
* `Pyodrx.Props.C25_two_road_ring`
* `Pyodrx.Props.C25_junction_id_collision`
* `Pyodrx.Props.C26_partial_effect`
* `Pyodrx.Props.C28_links`
* `Pyodrx.Props.C28_existing_lane`
* `Pyodrx.Props.C28_too_few_lanes`
* `Pyodrx.Props.C28_offset_names_center`
* `Pyodrx.Props.C28_loop`
* `Pyodrx.Props.C29_links`
* `Pyodrx.Props.C29_section_used`
* `Pyodrx.Props.C29_wrong_section`
* `Pyodrx.Props.C30_all_links`
* `Pyodrx.Props.C30_successor_link`
* `Pyodrx.Props.C30_predecessor_link`
* `Pyodrx.Props.C30_connecting_link`
* `Pyodrx.Props.C30_no_other_links`
* `Pyodrx.Props.C31_links`
* `Pyodrx.Props.C31_order`
* `Pyodrx.Props.C33_ids`
* `Pyodrx.Props.C33_unique`
* `Pyodrx.Props.C34_road`
* `Pyodrx.Props.C35_objects`
* `Pyodrx.Props.C35_signals`
* `Pyodrx.Props.C35_emitted`
* `Pyodrx.Props.C35_attribute`
* `Pyodrx.Props.C35_twice`
* `Pyodrx.Props.C36_kept`
* `Pyodrx.Props.C36_assigned`
* `Pyodrx.Props.C36_fresh`
* `Pyodrx.Props.C36_sequence`
* `Pyodrx.Props.C36_sequence_signals`
* `Pyodrx.Props.C36_separate`
* `Pyodrx.Props.C37_bound`
* `Pyodrx.Props.C37_loop`
* `Pyodrx.Props.C38_not_adjusted`
* `Pyodrx.Props.C38_roadside`
* `Pyodrx.Props.C39_outline`
* `Pyodrx.Props.C39_stable`
* `Pyodrx.Props.C40_required`
* `Pyodrx.Props.C40_optional`
* `Pyodrx.Props.C40_height_none`
* `Pyodrx.Props.C41_emitted`
* `Pyodrx.Props.C42_element`
* `Pyodrx.Props.C42_error`
* `Pyodrx.Props.C42_built`
* `Pyodrx.Props.C43_ids`
* `Pyodrx.Props.C43_road`
* `Pyodrx.Props.C43_document`
* `Pyodrx.Props.C43_error`
* `Pyodrx.Props.C44_no_underscore`
* `Pyodrx.Props.C44_injective`
* `Pyodrx.Props.C44_kernel`
* `Pyodrx.Props.C44_enumerations`
* `Pyodrx.Props.C45_create_road`
* `Pyodrx.Props.C46_create_straight_road`
* `Pyodrx.Props.C46_center_width`
* `Pyodrx.Props.C46_geometry`
* `Pyodrx.Props.C46_from_origin`
* `Pyodrx.Props.C47_create_cloth_arc_cloth`
* `Pyodrx.Props.C47_turn`
* `Pyodrx.Props.C47_turn_same_sign`
* `Pyodrx.Props.C47_arc_sign_ignored`
* `Pyodrx.Props.C47_zero_cloth`
* `Pyodrx.Props.C48_create_junction_roads`
* `Pyodrx.Props.C48_wrong_end`
* `Pyodrx.Props.C48_turn`
* `Pyodrx.Props.C49_lane_count_mismatch`
* `Pyodrx.Props.C50_create_junction`
* `Pyodrx.Props.C50_agrees`
* `Pyodrx.Props.C50_offset_names_missing_lane`
* `Pyodrx.Props.C50_offset_one_sided`
* `Pyodrx.Props.C50_missing_road`
* `Pyodrx.Props.C50_leads_nowhere`
* `Pyodrx.Props.C50_returns`
* `Pyodrx.Props.C51_all_headings`
* `Pyodrx.Props.C52_some_headings`
* `Pyodrx.Props.C52_backward_ignores_headings`
* `Pyodrx.Props.C53_self_loop`
* `Pyodrx.Props.C54_forward`
* `Pyodrx.Props.C54_headings`
* `Pyodrx.Props.C54_backward_unreadable`
* `Pyodrx.Props.C54_backward_single`
* `Pyodrx.Props.C55_link`
* `Pyodrx.Props.C55_road`
* `Pyodrx.Props.C56_connection`
* `Pyodrx.Props.C56_junction`
* `Pyodrx.Props.C57_line`
* `Pyodrx.Props.C57_mark`
* `Pyodrx.Props.C57_new_mark`
* `Pyodrx.Props.C57_lane`
* `Pyodrx.Props.C57_section`
* `Pyodrx.Props.C57_built`
* `Pyodrx.Props.C58_signal`
* `Pyodrx.Props.C58_new_signal`
* `Pyodrx.Props.C58_value_without_unit`
* `Pyodrx.Props.C58_object`
* `Pyodrx.Props.C58_object_type`
* `Pyodrx.Props.C58_new_object`
* `Pyodrx.Props.C58_angles`
* `Pyodrx.Props.C59_road`
* `Pyodrx.Props.C59_document`
* `Pyodrx.Props.C59_header`
* `Pyodrx.Props.C60_arc`
* `Pyodrx.Props.C60_arc_zero_length`
* `Pyodrx.Props.C60_arc_zero_angle`
* `Pyodrx.Props.C60_arc_zero_adjust`
* `Pyodrx.Props.C61_example`
* `Pyodrx.Props.C61_junction_program`
* `Pyodrx.Props.C61_lanes`
* `Pyodrx.Props.C61_junction_id_required`
* `Pyodrx.Props.C62_gap`
* `Pyodrx.Props.C62_right_angles`
* `Pyodrx.Props.C62_equal_turns`
* `Pyodrx.Props.C62_example`
* `Pyodrx.Props.C63_texts`
* `Pyodrx.Props.C63_plain`
* `Pyodrx.Props.C63_pretty`
* `Pyodrx.Props.C63_illegal`
* `Pyodrx.Props.C63_error`
* `Pyodrx.Props.C63_repeats`
* `Pyodrx.Props.C63_exactly`
* `Pyodrx.Props.C64_plain`
* `Pyodrx.Props.C64_pretty`
* `Pyodrx.Props.C64_texts`
* `Pyodrx.Props.C65_document`
* `Pyodrx.Props.C65_readable`
* `Pyodrx.Props.C65_file`
* `Pyodrx.Props.C66_document`
* `Pyodrx.Props.C66_file`
* `Pyodrx.Props.C66_right_angles`
* `Pyodrx.Props.C66_example`
* `Pyodrx.Props.C67_succeeds`
* `Pyodrx.Props.C67_stations`
* `Pyodrx.Props.C67_total`
* `Pyodrx.Props.C68_gap`
* `Pyodrx.Props.C68_end`
* `Pyodrx.Props.C69_joints`
* `Pyodrx.Props.C69_no_gap`
* `Pyodrx.Props.C69_tracks`
* `Pyodrx.Props.C69_succeeds_iff`
* `Pyodrx.Props.C69_otherwise`
* `Pyodrx.Props.C70_succeeds`
* `Pyodrx.Props.C70_gap`
* `Pyodrx.Props.C70_end`
* `Pyodrx.Props.C70_total`
* `Pyodrx.Props.C71_every_link`
* `Pyodrx.Props.C71_no_offset`
* `Pyodrx.Props.C71_float`
* `Pyodrx.Props.C71_document`
* `Pyodrx.Props.C71_offset_ignored`
* `Pyodrx.Props.C72_order`
* `Pyodrx.Props.C72_document`
* `Pyodrx.Props.C72_lanes`
* `Pyodrx.Props.C72_real`
* `Pyodrx.Props.C72_float`
* `Pyodrx.Props.C72_loops_matter`
* `Pyodrx.Props.C73_own`
* `Pyodrx.Props.C73_shared`
* `Pyodrx.Props.C73_shared_fixed`
* `Pyodrx.Props.C74_document`
* `Pyodrx.Props.C74_every_lane`
* `Pyodrx.Props.C74_no_others`
* `Pyodrx.Props.C74_offset`
* `Pyodrx.Props.C75_succeeds`
* `Pyodrx.Props.C75_placed`
* `Pyodrx.Props.C75_float`
* `Pyodrx.Props.C75_readable`
* `Pyodrx.Props.C75_document`
* `Pyodrx.Props.C76_triple`
* `Pyodrx.Props.C76_document`
* `Pyodrx.Props.C76_file`
* `Pyodrx.Props.C76_highway`
* `Pyodrx.Props.C76_exit`
* `Pyodrx.Props.C76_split`
* `Pyodrx.Props.C76_merge`
* `Pyodrx.Props.C77_split`
* `Pyodrx.Props.C77_narrow`
* `Pyodrx.Props.C77_merge`
* `Pyodrx.Props.C77_document`
* `Pyodrx.Props.C78_forward`
* `Pyodrx.Props.C78_backward`
* `Pyodrx.Props.C78_end_to_end`
* `Pyodrx.Props.C78_start_to_start`
* `Pyodrx.Props.C79_adjust`
* `Pyodrx.Props.C79_early`
* `Pyodrx.Props.C79_document`
* `Pyodrx.Props.C79_network`
* `Pyodrx.Props.C79_early_network`
* `Pyodrx.Props.C79_junction`
* `Pyodrx.Props.C80_anchors`
* `Pyodrx.Props.C80_doubled`
* `Pyodrx.Props.C80_grow`
* `Pyodrx.Props.C81_links`
* `Pyodrx.Props.C81_document`
* `Pyodrx.Props.C82_prettyprint`
* `Pyodrx.Props.C82_run_road`
* `Pyodrx.Props.C82_space`
* `Pyodrx.Props.C83_gap`
* `Pyodrx.Props.C83_end`
* `Pyodrx.Props.C83_planview`
* `Pyodrx.Props.C83_tracks`
* `Pyodrx.Props.C84_gap`
* `Pyodrx.Props.C84_end`
* `Pyodrx.Props.C85_written`
* `Pyodrx.Props.C85_crash`
* `Pyodrx.Props.C85_untouched`
* `Pyodrx.Props.C85_emptied`
* `Pyodrx.Props.C85_unencodable`
* `Pyodrx.Props.C85_document`
* `Pyodrx.Props.C85_latin1`
* `Pyodrx.Props.C86_document`
* `Pyodrx.Props.C86_exact`
* `Pyodrx.Props.C86_readable`
* `Pyodrx.Props.C86_file`
* `Pyodrx.Props.C87_order`
* `Pyodrx.Props.C87_no_exception`
* `Pyodrx.Props.C87_add_road`
* `Pyodrx.Props.C87_road`
* `Pyodrx.Props.C88_by_value`
* `Pyodrx.Props.C88_drawn`
* `Pyodrx.Props.C88_document`
* `Pyodrx.Props.C88_file`
* `Pyodrx.Props.C89_sections`
* `Pyodrx.Props.C89_lane_number`
* `Pyodrx.Props.C89_numbered`
* `Pyodrx.Props.C89_center`
* `Pyodrx.Props.C89_emits`
* `Pyodrx.Props.C89_connections`
* `Pyodrx.Props.C89_duplicate_id`
* `Pyodrx.Props.C90_roads`
* `Pyodrx.Props.C90_ids`
* `Pyodrx.Props.C90_document`
* `Pyodrx.Props.C90_added_twice`
* `Pyodrx.Props.C91_links`
* `Pyodrx.Props.C91_raises`
* `Pyodrx.Props.C91_document`
* `Pyodrx.Props.C92_returns`
* `Pyodrx.Props.C93_lane`
* `Pyodrx.Props.C93_lane_links`
* `Pyodrx.Props.C93_planview`
* `Pyodrx.Props.C93_object`
* `Pyodrx.Props.C93_geometry`
* `Pyodrx.Props.C93_signal`
* `Pyodrx.Props.C94_create_road`
* `Pyodrx.Props.C94_create_straight_road`
* `Pyodrx.Props.C94_create_cloth_arc_cloth`
* `Pyodrx.Props.C95_joint`
* `Pyodrx.Props.C95_connecting`
* `Pyodrx.Props.C95_no_others`
* `Pyodrx.Props.C95_kept`
* `Pyodrx.Props.C96_joints`
* `Pyodrx.Props.C96_cross_section`
* `Pyodrx.Props.C97_document`
* `Pyodrx.Props.C97_adjusted`
* `Pyodrx.Props.C97_consecutive`
* `Pyodrx.Props.C97_connecting`
* `Pyodrx.Props.C97_no_other_links`
* `Pyodrx.Props.C97_geometries`
* `Pyodrx.Props.C97_joints`
* `Pyodrx.Props.C97_file`
* `Pyodrx.Props.C98_lanes_touch`
* `Pyodrx.Props.C98_document`
* `Pyodrx.Props.C98_offset`
* `Pyodrx.Props.C98_offset_width`
* `Pyodrx.Props.C99_calls`
* `Pyodrx.Props.C99_not_adjusted`
* `Pyodrx.Props.C99_document`
* `Pyodrx.Props.C99_readable`
* `Pyodrx.Props.C99_too_early`
* `Pyodrx.Props.C99_adjusted`
* `Pyodrx.Props.C100_texts`
* `Pyodrx.Props.C100_history`
* `Pyodrx.Props.C100_file`
* `Pyodrx.Props.C100_document`
* `Pyodrx.Props.C100_roadside`
* `Pyodrx.Props.C100_laid`
* `Pyodrx.Props.C100_refused`
* `Pyodrx.Props.C101_document`
* `Pyodrx.Props.C101_outcomes`
* `Pyodrx.Props.C101_again`
* `Pyodrx.Props.C101_start`
* `Pyodrx.Props.C101_twice`
* `Pyodrx.Props.C101_ids`
* `Pyodrx.Props.C101_geometries`
* `Pyodrx.Props.C101_geometries_start`

## propext, Quot.sound (17 theorems)

* `Pyodrx.Props.C10_succeeds_iff`
* `Pyodrx.Props.C10_start`
* `Pyodrx.Props.C16_forward`
* `Pyodrx.Props.C16_backward`
* `Pyodrx.Props.C26_raises_iff`
* `Pyodrx.Props.C26_single_section`
* `Pyodrx.Props.C26_wrong_section`
* `Pyodrx.Props.C27_one_sided`
* `Pyodrx.Props.C31_once`
* `Pyodrx.Props.C32_numbering`
* `Pyodrx.Props.C32_distinct`
* `Pyodrx.Props.C34_getters`
* `Pyodrx.Props.C41_line_iff`
* `Pyodrx.Props.C41_space_lost`
* `Pyodrx.Props.C43_history`
* `Pyodrx.Props.C78_no_predecessor`
* `Pyodrx.Props.C79_junctions`

