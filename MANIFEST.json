{
 "claims": [
  {
   "property": "C01",
   "status": "proved",
   "theorems": [
    "Pyodrx.Props.C01_line_end",
    "Pyodrx.Props.C01_line_inverse"
   ],
   "note": ""
  },
  {
   "property": "C02",
   "status": "proved",
   "theorems": [
    "Pyodrx.Props.C02_arc_length",
    "Pyodrx.Props.C02_arc_angle"
   ],
   "note": ""
  },
  {
   "property": "C03",
   "status": "proved",
   "theorems": [
    "Pyodrx.Props.C03_arc_history_length",
    "Pyodrx.Props.C03_arc_history_angle",
    "Pyodrx.Props.C03_arc_history_wrong_sign"
   ],
   "note": "Proved for arcs given by a positive length or by an angle with the sign of the curvature; C03_arc_history_wrong_sign proves the stated failure."
  },
  {
   "property": "C04",
   "status": "proved",
   "theorems": [
    "Pyodrx.Props.C04_arc_inverse",
    "Pyodrx.Props.C04_length_known",
    "Pyodrx.Props.C04_arc_inverse_fresh_angle"
   ],
   "note": "C04_arc_inverse_fresh_angle proves the stated failure for a never evaluated arc."
  },
  {
   "property": "C05",
   "status": "proved",
   "theorems": [
    "Pyodrx.Props.C05_spiral_end",
    "Pyodrx.Props.C05_curvature"
   ],
   "note": ""
  },
  {
   "property": "C06",
   "status": "proved",
   "theorems": [
    "Pyodrx.Props.C06_spiral_inverse"
   ],
   "note": ""
  },
  {
   "property": "C07",
   "status": "proved",
   "theorems": [
    "Pyodrx.Props.C07_spiral_args",
    "Pyodrx.Props.C07_spiral_length",
    "Pyodrx.Props.C07_spiral_cdot",
    "Pyodrx.Props.C07_spiral_angle",
    "Pyodrx.Props.C07_spiral_angle_exact"
   ],
   "note": ""
  },
  {
   "property": "C08",
   "status": "proved",
   "theorems": [
    "Pyodrx.Props.C08_poly_end",
    "Pyodrx.Props.C08_heading_is_tangent"
   ],
   "note": ""
  },
  {
   "property": "C09",
   "status": "proved",
   "theorems": [
    "Pyodrx.Props.C09_poly_start",
    "Pyodrx.Props.C09_witness",
    "Pyodrx.Props.C09_distance"
   ],
   "note": "Finding: the property a user expects is violated; proved exactly when it holds, with a witness."
  },
  {
   "property": "C10",
   "status": "proved",
   "theorems": [
    "Pyodrx.Props.C10_succeeds_iff",
    "Pyodrx.Props.C10_error",
    "Pyodrx.Props.C10_fixed_iff",
    "Pyodrx.Props.C10_start"
   ],
   "note": ""
  },
  {
   "property": "C11",
   "status": "proved",
   "theorems": [
    "Pyodrx.Props.C11_forward",
    "Pyodrx.Props.C11_chained",
    "Pyodrx.Props.C11_only_if"
   ],
   "note": ""
  },
  {
   "property": "C12",
   "status": "proved",
   "theorems": [
    "Pyodrx.Props.C12_backward",
    "Pyodrx.Props.C12_only_if",
    "Pyodrx.Props.C12_poly"
   ],
   "note": ""
  },
  {
   "property": "C13",
   "status": "proved",
   "theorems": [
    "Pyodrx.Props.C13_backward_s",
    "Pyodrx.Props.C13_forward_s",
    "Pyodrx.Props.C13_single"
   ],
   "note": "Finding: violated after backward adjustment; the theorem gives the exact s values for every road."
  },
  {
   "property": "C14",
   "status": "proved",
   "theorems": [
    "Pyodrx.Props.C14_rigid"
   ],
   "note": ""
  },
  {
   "property": "C15",
   "status": "proved",
   "theorems": [
    "Pyodrx.Props.C15_network_again",
    "Pyodrx.Props.C15_network_twice",
    "Pyodrx.Props.C15_planview_twice"
   ],
   "note": "Planview part and network part."
  },
  {
   "property": "C16",
   "status": "proved",
   "theorems": [
    "Pyodrx.Props.C16_forward",
    "Pyodrx.Props.C16_backward",
    "Pyodrx.Props.C16_witness"
   ],
   "note": "Finding: violated for roads adjusted from the end, witness included."
  },
  {
   "property": "C17",
   "status": "proved",
   "theorems": [
    "Pyodrx.Props.C17_bound",
    "Pyodrx.Props.C17_no_infinite_run",
    "Pyodrx.Props.C17_run"
   ],
   "note": ""
  },
  {
   "property": "C18",
   "status": "proved",
   "theorems": [
    "Pyodrx.Props.C18_placed_once",
    "Pyodrx.Props.C18_only_placement"
   ],
   "note": ""
  },
  {
   "property": "C19",
   "status": "proved",
   "theorems": [
    "Pyodrx.Props.C19_connected_with_offset",
    "Pyodrx.Props.C19_linked_roads_meet"
   ],
   "note": ""
  },
  {
   "property": "C20",
   "status": "proved",
   "theorems": [
    "Pyodrx.Props.C20_succeeds_iff",
    "Pyodrx.Props.C20_otherwise",
    "Pyodrx.Props.C20_order"
   ],
   "note": ""
  },
  {
   "property": "C21",
   "status": "proved",
   "theorems": [
    "Pyodrx.Props.C21_offset",
    "Pyodrx.Props.C21_shift"
   ],
   "note": ""
  },
  {
   "property": "C22",
   "status": "proved",
   "theorems": [
    "Pyodrx.Props.C22_fixed_roads",
    "Pyodrx.Props.C22_given_start",
    "Pyodrx.Props.C22_first_road"
   ],
   "note": ""
  },
  {
   "property": "C23",
   "status": "proved",
   "theorems": [
    "Pyodrx.Props.C23_key_error",
    "Pyodrx.Props.C23_unbound_local",
    "Pyodrx.Props.C23_unresolvable_raises"
   ],
   "note": ""
  },
  {
   "property": "C24",
   "status": "proved",
   "theorems": [
    "Pyodrx.Props.C24_links",
    "Pyodrx.Props.C24_next_call",
    "Pyodrx.Props.C24_first_wins",
    "Pyodrx.Props.C24_emitted"
   ],
   "note": ""
  },
  {
   "property": "C25",
   "status": "proved",
   "theorems": [
    "Pyodrx.Props.C25_links",
    "Pyodrx.Props.C25_two_road_ring",
    "Pyodrx.Props.C25_junction_id_collision"
   ],
   "note": "C25_two_road_ring and C25_junction_id_collision are findings (wrong links)."
  },
  {
   "property": "C26",
   "status": "proved",
   "theorems": [
    "Pyodrx.Props.C26_raises_iff",
    "Pyodrx.Props.C26_single_section",
    "Pyodrx.Props.C26_partial_effect",
    "Pyodrx.Props.C26_wrong_section"
   ],
   "note": "Exact condition proved; findings: wrong section compared with several sections, partial effect before the exception."
  },
  {
   "property": "C27",
   "status": "proved",
   "theorems": [
    "Pyodrx.Props.C27_normal_roads",
    "Pyodrx.Props.C27_unlinked",
    "Pyodrx.Props.C27_one_sided",
    "Pyodrx.Props.C27_missing_end",
    "Pyodrx.Props.C27_id_types"
   ],
   "note": "Proved; findings: missing end of a connecting road raises AttributeError, ids of different Python types are not linked, a one-sided link between connecting roads makes lane links of the type None, which are not written (C27_one_sided)."
  },
  {
   "property": "C28",
   "status": "proved",
   "theorems": [
    "Pyodrx.Props.C28_links",
    "Pyodrx.Props.C28_existing_lane",
    "Pyodrx.Props.C28_too_few_lanes",
    "Pyodrx.Props.C28_offset_names_center",
    "Pyodrx.Props.C28_loop"
   ],
   "note": "Proved; findings: IndexError, offset may name lane 0, loops."
  },
  {
   "property": "C29",
   "status": "proved",
   "theorems": [
    "Pyodrx.Props.C29_links",
    "Pyodrx.Props.C29_section_used",
    "Pyodrx.Props.C29_wrong_section"
   ],
   "note": "Finding: violated for several sections; the section used is characterised exactly."
  },
  {
   "property": "C30",
   "status": "proved",
   "theorems": [
    "Pyodrx.Props.C30_all_links",
    "Pyodrx.Props.C30_successor_link",
    "Pyodrx.Props.C30_predecessor_link",
    "Pyodrx.Props.C30_connecting_link",
    "Pyodrx.Props.C30_no_other_links"
   ],
   "note": "Proved for every network that fits together (Linkable), normal and connecting roads."
  },
  {
   "property": "C31",
   "status": "proved",
   "theorems": [
    "Pyodrx.Props.C31_links",
    "Pyodrx.Props.C31_once",
    "Pyodrx.Props.C31_order"
   ],
   "note": ""
  },
  {
   "property": "C32",
   "status": "proved",
   "theorems": [
    "Pyodrx.Props.C32_numbering",
    "Pyodrx.Props.C32_distinct",
    "Pyodrx.Props.C32_readding"
   ],
   "note": ""
  },
  {
   "property": "C33",
   "status": "proved",
   "theorems": [
    "Pyodrx.Props.C33_ids",
    "Pyodrx.Props.C33_unique",
    "Pyodrx.Props.C33_collision"
   ],
   "note": ""
  },
  {
   "property": "C34",
   "status": "proved",
   "theorems": [
    "Pyodrx.Props.C34_getters",
    "Pyodrx.Props.C34_road"
   ],
   "note": ""
  },
  {
   "property": "C35",
   "status": "proved",
   "theorems": [
    "Pyodrx.Props.C35_objects",
    "Pyodrx.Props.C35_signals",
    "Pyodrx.Props.C35_emitted",
    "Pyodrx.Props.C35_attribute",
    "Pyodrx.Props.C35_twice"
   ],
   "note": ""
  },
  {
   "property": "C36",
   "status": "proved",
   "theorems": [
    "Pyodrx.Props.C36_kept",
    "Pyodrx.Props.C36_assigned",
    "Pyodrx.Props.C36_fresh",
    "Pyodrx.Props.C36_sequence",
    "Pyodrx.Props.C36_sequence_signals",
    "Pyodrx.Props.C36_separate"
   ],
   "note": ""
  },
  {
   "property": "C37",
   "status": "proved",
   "theorems": [
    "Pyodrx.Props.C37_bound",
    "Pyodrx.Props.C37_loop"
   ],
   "note": ""
  },
  {
   "property": "C38",
   "status": "proved",
   "theorems": [
    "Pyodrx.Props.C38_not_adjusted",
    "Pyodrx.Props.C38_roadside"
   ],
   "note": ""
  },
  {
   "property": "C39",
   "status": "proved",
   "theorems": [
    "Pyodrx.Props.C39_outline",
    "Pyodrx.Props.C39_stable"
   ],
   "note": ""
  },
  {
   "property": "C40",
   "status": "proved",
   "theorems": [
    "Pyodrx.Props.C40_appends",
    "Pyodrx.Props.C40_required",
    "Pyodrx.Props.C40_optional",
    "Pyodrx.Props.C40_height_none"
   ],
   "note": ""
  },
  {
   "property": "C41",
   "status": "proved",
   "theorems": [
    "Pyodrx.Props.C41_line_iff",
    "Pyodrx.Props.C41_line_values",
    "Pyodrx.Props.C41_other_types",
    "Pyodrx.Props.C41_space_lost",
    "Pyodrx.Props.C41_emitted"
   ],
   "note": ""
  },
  {
   "property": "C42",
   "status": "proved",
   "theorems": [
    "Pyodrx.Props.C42_element",
    "Pyodrx.Props.C42_error",
    "Pyodrx.Props.C42_built"
   ],
   "note": ""
  },
  {
   "property": "C43",
   "status": "proved",
   "theorems": [
    "Pyodrx.Props.C43_history",
    "Pyodrx.Props.C43_ids",
    "Pyodrx.Props.C43_road",
    "Pyodrx.Props.C43_document",
    "Pyodrx.Props.C43_error"
   ],
   "note": ""
  },
  {
   "property": "C44",
   "status": "proved",
   "theorems": [
    "Pyodrx.Props.C44_no_underscore",
    "Pyodrx.Props.C44_injective",
    "Pyodrx.Props.C44_kernel",
    "Pyodrx.Props.C44_enumerations"
   ],
   "note": ""
  },
  {
   "property": "C45",
   "status": "proved",
   "theorems": [
    "Pyodrx.Props.C45_create_road",
    "Pyodrx.Props.C45_no_length"
   ],
   "note": ""
  },
  {
   "property": "C46",
   "status": "proved",
   "theorems": [
    "Pyodrx.Props.C46_create_straight_road",
    "Pyodrx.Props.C46_center_width",
    "Pyodrx.Props.C46_geometry",
    "Pyodrx.Props.C46_from_origin"
   ],
   "note": ""
  },
  {
   "property": "C47",
   "status": "proved",
   "theorems": [
    "Pyodrx.Props.C47_create_cloth_arc_cloth",
    "Pyodrx.Props.C47_turn",
    "Pyodrx.Props.C47_turn_same_sign",
    "Pyodrx.Props.C47_arc_sign_ignored",
    "Pyodrx.Props.C47_zero_cloth"
   ],
   "note": ""
  },
  {
   "property": "C48",
   "status": "proved",
   "theorems": [
    "Pyodrx.Props.C48_create_junction_roads",
    "Pyodrx.Props.C48_wrong_end",
    "Pyodrx.Props.C48_turn"
   ],
   "note": ""
  },
  {
   "property": "C49",
   "status": "proved",
   "theorems": [
    "Pyodrx.Props.C49_lane_count_mismatch"
   ],
   "note": ""
  },
  {
   "property": "C50",
   "status": "proved",
   "theorems": [
    "Pyodrx.Props.C50_create_junction",
    "Pyodrx.Props.C50_agrees",
    "Pyodrx.Props.C50_offset_names_missing_lane",
    "Pyodrx.Props.C50_offset_one_sided",
    "Pyodrx.Props.C50_missing_road",
    "Pyodrx.Props.C50_leads_nowhere",
    "Pyodrx.Props.C50_returns"
   ],
   "note": ""
  },
  {
   "property": "C51",
   "status": "proved",
   "theorems": [
    "Pyodrx.Props.C51_all_headings"
   ],
   "note": ""
  },
  {
   "property": "C52",
   "status": "proved",
   "theorems": [
    "Pyodrx.Props.C52_some_headings",
    "Pyodrx.Props.C52_backward_ignores_headings"
   ],
   "note": "Finding: partial headings always fail; backward adjustment ignores headings."
  },
  {
   "property": "C53",
   "status": "proved",
   "theorems": [
    "Pyodrx.Props.C53_end_to_end",
    "Pyodrx.Props.C53_start_to_start",
    "Pyodrx.Props.C53_self_loop"
   ],
   "note": "Finding: violated; the theorems prove that no link is created."
  },
  {
   "property": "C54",
   "status": "proved",
   "theorems": [
    "Pyodrx.Props.C54_forward",
    "Pyodrx.Props.C54_headings",
    "Pyodrx.Props.C54_backward_unreadable",
    "Pyodrx.Props.C54_backward_single"
   ],
   "note": "Proved for forward adjustment; finding: violated for two or more geometries adjusted from the end (theorem C54_backward_unreadable)."
  },
  {
   "property": "C55",
   "status": "proved",
   "theorems": [
    "Pyodrx.Props.C55_link",
    "Pyodrx.Props.C55_road"
   ],
   "note": ""
  },
  {
   "property": "C56",
   "status": "proved",
   "theorems": [
    "Pyodrx.Props.C56_connection",
    "Pyodrx.Props.C56_junction"
   ],
   "note": ""
  },
  {
   "property": "C57",
   "status": "proved",
   "theorems": [
    "Pyodrx.Props.C57_line",
    "Pyodrx.Props.C57_mark",
    "Pyodrx.Props.C57_new_mark",
    "Pyodrx.Props.C57_lane",
    "Pyodrx.Props.C57_section",
    "Pyodrx.Props.C57_built"
   ],
   "note": ""
  },
  {
   "property": "C58",
   "status": "proved",
   "theorems": [
    "Pyodrx.Props.C58_signal",
    "Pyodrx.Props.C58_new_signal",
    "Pyodrx.Props.C58_value_without_unit",
    "Pyodrx.Props.C58_dependency",
    "Pyodrx.Props.C58_object",
    "Pyodrx.Props.C58_object_type",
    "Pyodrx.Props.C58_new_object",
    "Pyodrx.Props.C58_angles"
   ],
   "note": "Finding: violated for a value without unit (C58_value_without_unit)."
  },
  {
   "property": "C59",
   "status": "proved",
   "theorems": [
    "Pyodrx.Props.C59_road",
    "Pyodrx.Props.C59_document",
    "Pyodrx.Props.C59_header"
   ],
   "note": ""
  },
  {
   "property": "C60",
   "status": "proved",
   "theorems": [
    "Pyodrx.Props.C60_arc",
    "Pyodrx.Props.C60_poly",
    "Pyodrx.Props.C60_arc_zero_length",
    "Pyodrx.Props.C60_arc_zero_angle",
    "Pyodrx.Props.C60_arc_zero_adjust"
   ],
   "note": "Finding: arcs of length or angle 0 are accepted but make every plan view unadjustable."
  },
  {
   "property": "C61",
   "status": "proved",
   "theorems": [
    "Pyodrx.Props.C61_example",
    "Pyodrx.Props.C61_junction_program",
    "Pyodrx.Props.C61_lanes",
    "Pyodrx.Props.C61_junction_id_required"
   ],
   "note": "C61_example shows that the roads of the example meet the hypotheses; C61_junction_id_required is a finding."
  },
  {
   "property": "C62",
   "status": "proved",
   "theorems": [
    "Pyodrx.Props.C62_gap",
    "Pyodrx.Props.C62_right_angles",
    "Pyodrx.Props.C62_equal_turns",
    "Pyodrx.Props.C62_example"
   ],
   "note": "Real arithmetic; C62_example is the example as it is."
  },
  {
   "property": "C63",
   "status": "proved",
   "theorems": [
    "Pyodrx.Props.C63_texts",
    "Pyodrx.Props.C63_plain",
    "Pyodrx.Props.C63_pretty",
    "Pyodrx.Props.C63_illegal",
    "Pyodrx.Props.C63_error",
    "Pyodrx.Props.C63_repeats",
    "Pyodrx.Props.C63_exactly"
   ],
   "note": "The ElementTree and minidom writers of Python 3.11 are modelled character by character; expat is the reader Verif/XmlParser.lean. Findings: line breaks and tabs in values are lost by pretty printing; control characters are not refused. C63_texts: the conditions on values hold if they hold of the texts the user has given. C63_exactly assumes that numbers are printed with legal characters and that the signals are as `Signal` makes them (the Type is kept twice)."
  },
  {
   "property": "C64",
   "status": "proved",
   "theorems": [
    "Pyodrx.Props.C64_plain",
    "Pyodrx.Props.C64_pretty",
    "Pyodrx.Props.C64_texts"
   ],
   "note": "For every number type; asked of printing and reading numbers: the numbers of the document are read back (true of Python's repr and float for finite doubles)."
  },
  {
   "property": "C65",
   "status": "proved",
   "theorems": [
    "Pyodrx.Props.C65_document",
    "Pyodrx.Props.C65_readable",
    "Pyodrx.Props.C65_file"
   ],
   "note": "A road of several geometries that is placed from its end cannot be read (C13, C54). The road of one ParamPoly3 must be an anchor (C12)."
  },
  {
   "property": "C66",
   "status": "proved",
   "theorems": [
    "Pyodrx.Props.C66_document",
    "Pyodrx.Props.C66_file",
    "Pyodrx.Props.C66_right_angles",
    "Pyodrx.Props.C66_example"
   ],
   "note": "C66_example is examples/full_junction.py with the four roads of the script, from the loop that makes the roads to the written file."
  },
  {
   "property": "C67",
   "status": "proved",
   "theorems": [
    "Pyodrx.Props.C67_succeeds",
    "Pyodrx.Props.C67_stations",
    "Pyodrx.Props.C67_total"
   ],
   "note": "`Rounding` (Verif/Rounding.lean) is what IEEE 754 says of rounding without overflow and underflow; `double` (53 bits, round to nearest) is proved to be one. Forward direction; C70 is the other one."
  },
  {
   "property": "C68",
   "status": "proved",
   "theorems": [
    "Pyodrx.Props.C68_gap",
    "Pyodrx.Props.C68_end"
   ],
   "note": "As C67. Lines and arcs; the Fresnel integrals of scipy are not specified in `Rounding`, so spirals have no bound."
  },
  {
   "property": "C69",
   "status": "proved",
   "theorems": [
    "Pyodrx.Props.C69_joints",
    "Pyodrx.Props.C69_no_gap",
    "Pyodrx.Props.C69_tracks",
    "Pyodrx.Props.C69_succeeds_iff",
    "Pyodrx.Props.C69_otherwise"
   ],
   "note": "C69_no_gap: equal coordinates without lane offsets. The bounds inside roads are for lines and arcs (see C68)."
  },
  {
   "property": "C70",
   "status": "proved",
   "theorems": [
    "Pyodrx.Props.C70_succeeds",
    "Pyodrx.Props.C70_gap",
    "Pyodrx.Props.C70_end",
    "Pyodrx.Props.C70_total"
   ],
   "note": "As C67, C68. Geometries are emitted in reverse order (finding of C13)."
  },
  {
   "property": "C71",
   "status": "proved",
   "theorems": [
    "Pyodrx.Props.C71_every_link",
    "Pyodrx.Props.C71_no_offset",
    "Pyodrx.Props.C71_float",
    "Pyodrx.Props.C71_document",
    "Pyodrx.Props.C71_offset_ignored"
   ],
   "note": "C71_offset_ignored is the finding. Examples: exNet, exOffsetNet."
  },
  {
   "property": "C72",
   "status": "proved",
   "theorems": [
    "Pyodrx.Props.C72_order",
    "Pyodrx.Props.C72_document",
    "Pyodrx.Props.C72_lanes",
    "Pyodrx.Props.C72_real",
    "Pyodrx.Props.C72_float",
    "Pyodrx.Props.C72_loops_matter"
   ],
   "note": "C72_loops_matter is the finding. Examples: exNet / exNetReversed, exLaneNet with two roads exchanged."
  },
  {
   "property": "C73",
   "status": "proved",
   "theorems": [
    "Pyodrx.Props.C73_own",
    "Pyodrx.Props.C73_shared",
    "Pyodrx.Props.C73_shared_fixed"
   ],
   "note": "C73_shared_fixed is the finding. Examples: exSharedNet (own planviews), exShared (shared)."
  },
  {
   "property": "C74",
   "status": "proved",
   "theorems": [
    "Pyodrx.Props.C74_document",
    "Pyodrx.Props.C74_every_lane",
    "Pyodrx.Props.C74_no_others",
    "Pyodrx.Props.C74_offset"
   ],
   "note": "C74_offset is the finding. Example: exLaneNet_touch (four roads with lanes)."
  },
  {
   "property": "C75",
   "status": "proved",
   "theorems": [
    "Pyodrx.Props.C75_succeeds",
    "Pyodrx.Props.C75_placed",
    "Pyodrx.Props.C75_float",
    "Pyodrx.Props.C75_readable",
    "Pyodrx.Props.C75_document"
   ],
   "note": "Sharpens C71 (which of the two roads is placed) and C65 (several geometries). Example: exLaneNet_tree."
  },
  {
   "property": "C76",
   "status": "proved",
   "theorems": [
    "Pyodrx.Props.C76_triple",
    "Pyodrx.Props.C76_document",
    "Pyodrx.Props.C76_file",
    "Pyodrx.Props.C76_highway",
    "Pyodrx.Props.C76_exit",
    "Pyodrx.Props.C76_split",
    "Pyodrx.Props.C76_merge"
   ],
   "note": "Joins C75, C74, C66 and C59 for whole programs. C76_highway, C76_split, C76_merge and C76_triple are programs of the examples directory (two_roads.py and multiple_geometries_one_road.py in Props/UnlinkedExamples.lean); C76_merge is the finding (lane offset at the end of a connecting road)."
  },
  {
   "property": "C77",
   "status": "proved",
   "theorems": [
    "Pyodrx.Props.C77_split",
    "Pyodrx.Props.C77_narrow",
    "Pyodrx.Props.C77_merge",
    "Pyodrx.Props.C77_document"
   ],
   "note": "C77_narrow, C77_split and C77_merge are programs of the examples directory; C77_merge is the finding. RoadCall.LinkFits is the condition on a link given to the LaneLinker."
  },
  {
   "property": "C78",
   "status": "proved",
   "theorems": [
    "Pyodrx.Props.C78_forward",
    "Pyodrx.Props.C78_backward",
    "Pyodrx.Props.C78_end_to_end",
    "Pyodrx.Props.C78_start_to_start",
    "Pyodrx.Props.C78_no_predecessor"
   ],
   "note": "C78_backward, C78_start_to_start and C78_no_predecessor are findings. Found through a surviving automatic mutant of getRelatedLanesection."
  },
  {
   "property": "C79",
   "status": "proved",
   "theorems": [
    "Pyodrx.Props.C79_adjust",
    "Pyodrx.Props.C79_junctions",
    "Pyodrx.Props.C79_early",
    "Pyodrx.Props.C79_document",
    "Pyodrx.Props.C79_network",
    "Pyodrx.Props.C79_early_network",
    "Pyodrx.Props.C79_junction"
   ],
   "note": "C79_network and C79_junction are the theorems for whole programs; C79_document holds for any roads. The examples junction_with_signals.py and multiple_geometries_one_road_with_objects.py are in Props/FurnishExamples.lean."
  },
  {
   "property": "C80",
   "status": "proved",
   "theorems": [
    "Pyodrx.Props.C80_anchors",
    "Pyodrx.Props.C80_doubled",
    "Pyodrx.Props.C80_grow"
   ],
   "note": "A finding; generalises C15 to networks that are only partly adjusted."
  },
  {
   "property": "C81",
   "status": "proved",
   "theorems": [
    "Pyodrx.Props.C81_links",
    "Pyodrx.Props.C81_document"
   ],
   "note": "Finding: a lane shared by several roads collects the links of all of them. Exact number and content of the links for any sharing between normal roads (C81_links), and what a reader of the document sees if all roads have one Lanes object (C81_document)."
  },
  {
   "property": "C82",
   "status": "proved",
   "theorems": [
    "Pyodrx.Props.C82_prettyprint",
    "Pyodrx.Props.C82_run_road",
    "Pyodrx.Props.C82_space"
   ],
   "note": "POSIX only; the command is read as a shell would read a command of plain characters and spaces (Spec/Shell.lean)."
  },
  {
   "property": "C83",
   "status": "proved",
   "theorems": [
    "Pyodrx.Props.C83_gap",
    "Pyodrx.Props.C83_end",
    "Pyodrx.Props.C83_planview",
    "Pyodrx.Props.C83_tracks"
   ],
   "note": "Rounding as in C67-C70; the Fresnel routine is assumed to have a relative error of f units (FresnelAccurate, satisfied by doubles with f = 1 for a correctly rounded routine). C83_gap/C83_end: forward; C83_planview: both directions; C83_tracks: networks. ParamPoly3: C84."
  },
  {
   "property": "C84",
   "status": "proved",
   "theorems": [
    "Pyodrx.Props.C84_gap",
    "Pyodrx.Props.C84_end"
   ],
   "note": "Rounding as in C67-C70; arctan2 is assumed accurate to a units (ArctanAccurate; doubles with a correctly rounded routine satisfy it with a = 4). The bound on the direction divides by the norm of the tangent. Forward adjustment only (the backward one is wrong in exact arithmetic, C09)."
  },
  {
   "property": "C85",
   "status": "proved",
   "theorems": [
    "Pyodrx.Props.C85_written",
    "Pyodrx.Props.C85_crash",
    "Pyodrx.Props.C85_untouched",
    "Pyodrx.Props.C85_emptied",
    "Pyodrx.Props.C85_unencodable",
    "Pyodrx.Props.C85_document",
    "Pyodrx.Props.C85_latin1"
   ],
   "note": "The bytes are assumed to reach the disk in order, the directory to exist and the disk not to be full. The platform (encoding, line break) is a parameter; the reader takes a file without encoding declaration for UTF-8, as XML prescribes. C85_written and C85_crash ask that the platform encodes the written characters as UTF-8 does (for pretty printing only; plain files are ASCII) and, with Windows line breaks, that no value contains a line break. C85_emptied, C85_unencodable and C85_latin1 state the limits."
  },
  {
   "property": "C86",
   "status": "proved",
   "theorems": [
    "Pyodrx.Props.C86_document",
    "Pyodrx.Props.C86_exact",
    "Pyodrx.Props.C86_readable",
    "Pyodrx.Props.C86_file"
   ],
   "note": "f and a are the accuracies of scipy's Fresnel integrals and numpy's arctan2. The bounds are those of C69, C83 and C84; C86_exact shows that they say nothing else than the exact ends if nothing is rounded. Overflow, infinities, NaN and underflow are not modelled (see C67)."
  },
  {
   "property": "C87",
   "status": "proved",
   "theorems": [
    "Pyodrx.Props.C87_order",
    "Pyodrx.Props.C87_no_exception",
    "Pyodrx.Props.C87_add_road",
    "Pyodrx.Props.C87_road"
   ],
   "note": "Touches says which objects a call has to do with: an object that is only put into another one is not touched, the other one refers to it. adjust_roads_and_lanes touches everything, so no call is moved past it. add_object_roadside and the generators are not calls of this model."
  },
  {
   "property": "C88",
   "status": "proved",
   "theorems": [
    "Pyodrx.Props.C88_by_value",
    "Pyodrx.Props.C88_drawn",
    "Pyodrx.Props.C88_document",
    "Pyodrx.Props.C88_file"
   ],
   "note": "Connects the calls of the API to the hypotheses of C86 (DrawnNetFl), so that these are not only met by networks that were written down as values. hpoly, hone and hrange are conditions on the drawn network, as in C86."
  },
  {
   "property": "C89",
   "status": "proved",
   "theorems": [
    "Pyodrx.Props.C89_sections",
    "Pyodrx.Props.C89_lane_number",
    "Pyodrx.Props.C89_numbered",
    "Pyodrx.Props.C89_center",
    "Pyodrx.Props.C89_emits",
    "Pyodrx.Props.C89_connections",
    "Pyodrx.Props.C89_duplicate_id"
   ],
   "note": "C89_duplicate_id is a finding: a connection shared by two junctions can give two connections of one junction the same id."
  },
  {
   "property": "C90",
   "status": "proved",
   "theorems": [
    "Pyodrx.Props.C90_roads",
    "Pyodrx.Props.C90_ids",
    "Pyodrx.Props.C90_document",
    "Pyodrx.Props.C90_added_twice"
   ],
   "note": "C90_added_twice is a finding: adding an object a second time renumbers it. The document theorem assumes that marks and signals are as their constructors make them (GoodRoad)."
  },
  {
   "property": "C91",
   "status": "proved",
   "theorems": [
    "Pyodrx.Props.C91_links",
    "Pyodrx.Props.C91_raises",
    "Pyodrx.Props.C91_document"
   ],
   "note": "The document theorem assumes that marks and signals are as their constructors make them (GoodRoad)."
  },
  {
   "property": "C92",
   "status": "proved",
   "theorems": [
    "Pyodrx.Props.C92_returns"
   ],
   "note": "Every condition is about the calls of the program, not about the objects they build."
  },
  {
   "property": "C93",
   "status": "proved",
   "theorems": [
    "Pyodrx.Props.C93_lane",
    "Pyodrx.Props.C93_lane_links",
    "Pyodrx.Props.C93_planview",
    "Pyodrx.Props.C93_object",
    "Pyodrx.Props.C93_geometry",
    "Pyodrx.Props.C93_signal"
   ],
   "note": "set_start_point moves a planview but does not make it an anchor."
  },
  {
   "property": "C94",
   "status": "proved",
   "theorems": [
    "Pyodrx.Props.C94_create_road",
    "Pyodrx.Props.C94_create_straight_road",
    "Pyodrx.Props.C94_create_cloth_arc_cloth"
   ],
   "note": "HandRoad lists what the program must do; the order of its calls is free. The generators' centre lane differs: width 0 in create_road, width 3 in the others."
  },
  {
   "property": "C95",
   "status": "proved",
   "theorems": [
    "Pyodrx.Props.C95_joint",
    "Pyodrx.Props.C95_connecting",
    "Pyodrx.Props.C95_no_others",
    "Pyodrx.Props.C95_kept"
   ],
   "note": "Every condition is about the calls of the program. A lane is identified by the call that added it."
  },
  {
   "property": "C96",
   "status": "proved",
   "theorems": [
    "Pyodrx.Props.C96_joints",
    "Pyodrx.Props.C96_cross_section"
   ],
   "note": "Every condition is about the calls of the program. The lane width 3 is hard-coded in the library."
  },
  {
   "property": "C97",
   "status": "proved",
   "theorems": [
    "Pyodrx.Props.C97_document",
    "Pyodrx.Props.C97_adjusted",
    "Pyodrx.Props.C97_consecutive",
    "Pyodrx.Props.C97_connecting",
    "Pyodrx.Props.C97_no_other_links",
    "Pyodrx.Props.C97_geometries",
    "Pyodrx.Props.C97_joints",
    "Pyodrx.Props.C97_file"
   ],
   "note": "Every condition is about the calls of the program, and every conclusion about what a reader of the document finds. The length of an arc is not claimed: it drifts in floating point arithmetic with every evaluation. Connection ids that were not given are those of C91; ids of signals and objects those of C90. C97_document takes GoodRoad, which C97_adjusted derives for laid out programs. That the document can be read is proved in C97_file for programs whose roads that are not anchors have one geometry, not a ParamPoly3 (the others are finding C12/C13)."
  },
  {
   "property": "C98",
   "status": "proved",
   "theorems": [
    "Pyodrx.Props.C98_lanes_touch",
    "Pyodrx.Props.C98_document",
    "Pyodrx.Props.C98_offset",
    "Pyodrx.Props.C98_offset_width"
   ],
   "note": "The counterpart of C74 for programs of calls, their documents, and floating point arithmetic. The hypotheses are about calls only; `f` and `a` are the accuracies of Fresnel integrals and arctan2 (C86). AgreeingProgram takes widths that agree at all distances from the starts of the sections (e.g. constant ones); C98_lanes_touch has the version for widths that agree at the ends. C98_offset_width is a finding: a lane offset n moves the road by 3 n however wide the lanes are, so that with lanes d wide the linked lanes are (3 - d) * n apart, sideways."
  },
  {
   "property": "C99",
   "status": "proved",
   "theorems": [
    "Pyodrx.Props.C99_calls",
    "Pyodrx.Props.C99_not_adjusted",
    "Pyodrx.Props.C99_document",
    "Pyodrx.Props.C99_readable",
    "Pyodrx.Props.C99_too_early",
    "Pyodrx.Props.C99_adjusted"
   ],
   "note": "C38 for one road; here for programs and their documents. The copies get fresh names in the model, so that one can speak of them. `ObjectNow` is the object as the calls made it, up to the id it may have got when it was added itself. C99_document has one hypothesis about the state (GoodRoad: marks and signals can be shown), which C99_adjusted derives from the calls."
  },
  {
   "property": "C100",
   "status": "proved",
   "theorems": [
    "Pyodrx.Props.C100_texts",
    "Pyodrx.Props.C100_history",
    "Pyodrx.Props.C100_file",
    "Pyodrx.Props.C100_document",
    "Pyodrx.Props.C100_roadside",
    "Pyodrx.Props.C100_laid",
    "Pyodrx.Props.C100_refused"
   ],
   "note": "C63, C64 have hypotheses about all texts of the document and about the repetitions of all objects in the state; here they are about the calls. C100_history needs that the document can be emitted, which C89 proves of programs that assign variables once and before their use (C100_file). `NothingMade` says of the state before the program that nothing was made yet. C100_document and C100_roadside are C97_document and C99_document without hypotheses about the state. C100_refused is the other direction: a text with an illegal character in one of the calls of CallWritten (Spec/SessionRefused.lean)."
  },
  {
   "property": "C101",
   "status": "proved",
   "theorems": [
    "Pyodrx.Props.C101_document",
    "Pyodrx.Props.C101_outcomes",
    "Pyodrx.Props.C101_again",
    "Pyodrx.Props.C101_start",
    "Pyodrx.Props.C101_twice",
    "Pyodrx.Props.C101_ids",
    "Pyodrx.Props.C101_geometries",
    "Pyodrx.Props.C101_geometries_start"
   ],
   "note": "C101_ids is the necessity of `at most one of them adds objects or signals`. `OnItsOwn` says of planviews that the start pose is given completely or not at all; otherwise the constructor raises and makes no object. C101_geometries and C101_geometries_start are for programs that also call `planview.adjust_geometries`; add_object_roadside is not among the calls of C101 (C99_calls gives the calls that have its effect)."
  }
 ]
}