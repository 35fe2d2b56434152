{
 "C03": {
  "note": "Proved for arcs given by a positive length or by an angle with the sign of the curvature; C03_arc_history_wrong_sign proves the stated failure."
 },
 "C04": {
  "note": "C04_arc_inverse_fresh_angle proves the stated failure for a never evaluated arc."
 },
 "C09": {
  "note": "Finding: the property a user expects is violated; proved exactly when it holds, with a witness."
 },
 "C13": {
  "note": "Finding: violated after backward adjustment; the theorem gives the exact s values for every road."
 },
 "C15": {
  "note": "Planview part and network part."
 },
 "C16": {
  "note": "Finding: violated for roads adjusted from the end, witness included."
 },
 "C52": {
  "note": "Finding: partial headings always fail; backward adjustment ignores headings."
 },
 "C25": {
  "note": "C25_two_road_ring and C25_junction_id_collision are findings (wrong links)."
 },
 "C26": {
  "note": "Exact condition proved; findings: wrong section compared with several sections, partial effect before the exception."
 },
 "C27": {
  "note": "Proved; findings: missing end of a connecting road raises AttributeError, ids of different Python types are not linked, a one-sided link between connecting roads makes lane links of the type None, which are not written (C27_one_sided)."
 },
 "C28": {
  "note": "Proved; findings: IndexError, offset may name lane 0, loops."
 },
 "C29": {
  "note": "Finding: violated for several sections; the section used is characterised exactly."
 },
 "C30": {
  "note": "Proved for every network that fits together (Linkable), normal and connecting roads."
 },
 "C53": {
  "note": "Finding: violated; the theorems prove that no link is created."
 },
 "C54": {
  "note": "Proved for forward adjustment; finding: violated for two or more geometries adjusted from the end (theorem C54_backward_unreadable)."
 },
 "C58": {
  "note": "Finding: violated for a value without unit (C58_value_without_unit)."
 },
 "C60": {
  "note": "Finding: arcs of length or angle 0 are accepted but make every plan view unadjustable."
 },
 "C61": {
  "note": "C61_example shows that the roads of the example meet the hypotheses; C61_junction_id_required is a finding."
 },
 "C62": {
  "note": "Real arithmetic; C62_example is the example as it is."
 },
 "C63": {
  "note": "The ElementTree and minidom writers of Python 3.11 are modelled character by character; expat is the reader Verif/XmlParser.lean. Findings: line breaks and tabs in values are lost by pretty printing; control characters are not refused. C63_texts: the conditions on values hold if they hold of the texts the user has given. C63_exactly assumes that numbers are printed with legal characters and that the signals are as `Signal` makes them (the Type is kept twice)."
 },
 "C64": {
  "note": "For every number type; asked of printing and reading numbers: the numbers of the document are read back (true of Python's repr and float for finite doubles)."
 },
 "C65": {
  "note": "A road of several geometries that is placed from its end cannot be read (C13, C54). The road of one ParamPoly3 must be an anchor (C12)."
 },
 "C66": {
  "note": "C66_example is examples/full_junction.py with the four roads of the script, from the loop that makes the roads to the written file."
 },
 "C67": {
  "note": "`Rounding` (Verif/Rounding.lean) is what IEEE 754 says of rounding without overflow and underflow; `double` (53 bits, round to nearest) is proved to be one. Forward direction; C70 is the other one."
 },
 "C68": {
  "note": "As C67. Lines and arcs; the Fresnel integrals of scipy are not specified in `Rounding`, so spirals have no bound."
 },
 "C69": {
  "note": "C69_no_gap: equal coordinates without lane offsets. The bounds inside roads are for lines and arcs (see C68)."
 },
 "C70": {
  "note": "As C67, C68. Geometries are emitted in reverse order (finding of C13)."
 },
 "C71": {
  "note": "C71_offset_ignored is the finding. Examples: exNet, exOffsetNet."
 },
 "C72": {
  "note": "C72_loops_matter is the finding. Examples: exNet / exNetReversed, exLaneNet with two roads exchanged."
 },
 "C73": {
  "note": "C73_shared_fixed is the finding. Examples: exSharedNet (own planviews), exShared (shared)."
 },
 "C74": {
  "note": "C74_offset is the finding. Example: exLaneNet_touch (four roads with lanes)."
 },
 "C75": {
  "note": "Sharpens C71 (which of the two roads is placed) and C65 (several geometries). Example: exLaneNet_tree."
 },
 "C76": {
  "note": "Joins C75, C74, C66 and C59 for whole programs. C76_highway, C76_split, C76_merge and C76_triple are programs of the examples directory (two_roads.py and multiple_geometries_one_road.py in Props/UnlinkedExamples.lean); C76_merge is the finding (lane offset at the end of a connecting road)."
 },
 "C77": {
  "note": "C77_narrow, C77_split and C77_merge are programs of the examples directory; C77_merge is the finding. RoadCall.LinkFits is the condition on a link given to the LaneLinker."
 },
 "C78": {
  "note": "C78_backward, C78_start_to_start and C78_no_predecessor are findings. Found through a surviving automatic mutant of getRelatedLanesection."
 },
 "C79": {
  "note": "C79_network and C79_junction are the theorems for whole programs; C79_document holds for any roads. The examples junction_with_signals.py and multiple_geometries_one_road_with_objects.py are in Props/FurnishExamples.lean."
 },
 "C80": {
  "note": "A finding; generalises C15 to networks that are only partly adjusted."
 },
 "C81": {
  "note": "Finding: a lane shared by several roads collects the links of all of them. Exact number and content of the links for any sharing between normal roads (C81_links), and what a reader of the document sees if all roads have one Lanes object (C81_document)."
 },
 "C82": {
  "note": "POSIX only; the command is read as a shell would read a command of plain characters and spaces (Spec/Shell.lean)."
 },
 "C83": {
  "note": "Rounding as in C67-C70; the Fresnel routine is assumed to have a relative error of f units (FresnelAccurate, satisfied by doubles with f = 1 for a correctly rounded routine). C83_gap/C83_end: forward; C83_planview: both directions; C83_tracks: networks. ParamPoly3: C84."
 },
 "C84": {
  "note": "Rounding as in C67-C70; arctan2 is assumed accurate to a units (ArctanAccurate; doubles with a correctly rounded routine satisfy it with a = 4). The bound on the direction divides by the norm of the tangent. Forward adjustment only (the backward one is wrong in exact arithmetic, C09)."
 },
 "C85": {
  "note": "The bytes are assumed to reach the disk in order, the directory to exist and the disk not to be full. The platform (encoding, line break) is a parameter; the reader takes a file without encoding declaration for UTF-8, as XML prescribes. C85_written and C85_crash ask that the platform encodes the written characters as UTF-8 does (for pretty printing only; plain files are ASCII) and, with Windows line breaks, that no value contains a line break. C85_emptied, C85_unencodable and C85_latin1 state the limits."
 },
 "C86": {
  "note": "f and a are the accuracies of scipy's Fresnel integrals and numpy's arctan2. The bounds are those of C69, C83 and C84; C86_exact shows that they say nothing else than the exact ends if nothing is rounded. Overflow, infinities, NaN and underflow are not modelled (see C67)."
 },
 "C87": {
  "note": "Touches says which objects a call has to do with: an object that is only put into another one is not touched, the other one refers to it. adjust_roads_and_lanes touches everything, so no call is moved past it. add_object_roadside and the generators are not calls of this model."
 },
 "C88": {
  "note": "Connects the calls of the API to the hypotheses of C86 (DrawnNetFl), so that these are not only met by networks that were written down as values. hpoly, hone and hrange are conditions on the drawn network, as in C86."
 },
 "C89": {
  "note": "C89_duplicate_id is a finding: a connection shared by two junctions can give two connections of one junction the same id."
 },
 "C90": {
  "note": "C90_added_twice is a finding: adding an object a second time renumbers it. The document theorem assumes that marks and signals are as their constructors make them (GoodRoad)."
 },
 "C91": {
  "note": "The document theorem assumes that marks and signals are as their constructors make them (GoodRoad)."
 },
 "C92": {
  "note": "Every condition is about the calls of the program, not about the objects they build."
 },
 "C93": {
  "note": "set_start_point moves a planview but does not make it an anchor."
 },
 "C94": {
  "note": "HandRoad lists what the program must do; the order of its calls is free. The generators' centre lane differs: width 0 in create_road, width 3 in the others."
 },
 "C95": {
  "note": "Every condition is about the calls of the program. A lane is identified by the call that added it."
 },
 "C96": {
  "note": "Every condition is about the calls of the program. The lane width 3 is hard-coded in the library."
 },
 "C97": {
  "note": "Every condition is about the calls of the program, and every conclusion about what a reader of the document finds. The length of an arc is not claimed: it drifts in floating point arithmetic with every evaluation. Connection ids that were not given are those of C91; ids of signals and objects those of C90. C97_document takes GoodRoad, which C97_adjusted derives for laid out programs. That the document can be read is proved in C97_file for programs whose roads that are not anchors have one geometry, not a ParamPoly3 (the others are finding C12/C13)."
 },
 "C98": {
  "note": "The counterpart of C74 for programs of calls, their documents, and floating point arithmetic. The hypotheses are about calls only; `f` and `a` are the accuracies of Fresnel integrals and arctan2 (C86). AgreeingProgram takes widths that agree at all distances from the starts of the sections (e.g. constant ones); C98_lanes_touch has the version for widths that agree at the ends. C98_offset_width is a finding: a lane offset n moves the road by 3 n however wide the lanes are, so that with lanes d wide the linked lanes are (3 - d) * n apart, sideways."
 },
 "C99": {
  "note": "C38 for one road; here for programs and their documents. The copies get fresh names in the model, so that one can speak of them. `ObjectNow` is the object as the calls made it, up to the id it may have got when it was added itself. C99_document has one hypothesis about the state (GoodRoad: marks and signals can be shown), which C99_adjusted derives from the calls."
 },
 "C100": {
  "note": "C63, C64 have hypotheses about all texts of the document and about the repetitions of all objects in the state; here they are about the calls. C100_history needs that the document can be emitted, which C89 proves of programs that assign variables once and before their use (C100_file). `NothingMade` says of the state before the program that nothing was made yet. C100_document and C100_roadside are C97_document and C99_document without hypotheses about the state. C100_refused is the other direction: a text with an illegal character in one of the calls of CallWritten (Spec/SessionRefused.lean)."
 },
 "C101": {
  "note": "C101_ids is the necessity of `at most one of them adds objects or signals`. `OnItsOwn` says of planviews that the start pose is given completely or not at all; otherwise the constructor raises and makes no object. C101_geometries and C101_geometries_start are for programs that also call `planview.adjust_geometries`; add_object_roadside is not among the calls of C101 (C99_calls gives the calls that have its effect)."
 }
}
