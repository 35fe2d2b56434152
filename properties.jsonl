{"id": "C01", "title": "Line end point and its inverse", "statement": "Line(length).get_end_data(x,y,h) returns the point `length` along heading h, the same heading and the same length; get_start_data called at that end point with the reversed heading (h+pi) returns exactly the original x,y and the reversed heading.", "quantifier": "every length, every start pose (real arithmetic)", "why_tests_cant": "The tests try seven poses; the law must hold at every pose and length.", "anchors": ["pyodrx/geometry.py:Line.get_end_data", "pyodrx/geometry.py:Line.get_start_data"]}
{"id": "C02", "title": "Arc end point is the circular arc", "statement": "For curvature k != 0 and an arc defined by a length L>0 (or an angle with the sign of k, L=|angle|/|k|), get_end_data returns heading h+k*L, length L, and the position obtained by integrating the unit tangent (cos(h+k s), sin(h+k s)) over s in [0,L].", "quantifier": "every non-zero curvature, positive length or sign-consistent angle, start pose (real arithmetic)", "why_tests_cant": "Infinite domain; tests use multiples of pi/2 and radius 1 or 2.", "anchors": ["pyodrx/geometry.py:Arc.__init__", "pyodrx/geometry.py:Arc.get_end_data"]}
{"id": "C03", "title": "Arc results do not depend on call history", "statement": "get_end_data and get_start_data mutate the Arc object; nevertheless, after any sequence of such calls (at any poses, in any order) an Arc built from a positive length, or from an angle with the sign of its curvature that has been evaluated forward once, returns the same end/start data as if it had never been called. For an angle whose sign differs from the curvature this fails: the first and second get_end_data calls differ.", "quantifier": "every finite call history on one Arc object", "why_tests_cant": "Quantifies over all call histories of a mutable object shared between roads.", "anchors": ["pyodrx/geometry.py:Arc.get_end_data", "pyodrx/geometry.py:Arc.get_start_data"]}
{"id": "C04", "title": "Arc start data inverts end data", "statement": "For an Arc whose length is known (positive length given, or get_end_data already called), get_start_data at the end pose with reversed heading returns the original position, and the reversed start heading. On a never-evaluated Arc built from an angle this is false.", "quantifier": "every arc and start pose (real arithmetic)", "why_tests_cant": "Infinite domain; tests always evaluate forward first so never see the fresh-object case.", "anchors": ["pyodrx/geometry.py:Arc.get_start_data"]}
{"id": "C05", "title": "Spiral end point is the clothoid", "statement": "For length L>0 get_end_data returns the position obtained by integrating (cos,sin) of the heading theta(s)=h+curvstart*s+(curvend-curvstart)/L*s^2/2 over [0,L], heading theta(L)=h+(curvstart+curvend)/2*L, and length L, in all three branches (straight, constant curvature, Fresnel) and for either sign of curvature change.", "quantifier": "every curvstart, curvend, length>0, start pose (real arithmetic, exact Fresnel integrals)", "why_tests_cant": "Infinite domain; tests compare a handful of 6-digit numbers.", "anchors": ["pyodrx/geometry.py:Spiral.get_end_data", "pyodrx/geometry.py:EulerSpiral.calc"]}
{"id": "C06", "title": "Spiral start data inverts end data", "statement": "get_start_data at the end pose with reversed heading returns the original position and reversed heading, for every spiral of positive length.", "quantifier": "every curvstart, curvend, length>0, pose (real arithmetic)", "why_tests_cant": "Infinite domain.", "anchors": ["pyodrx/geometry.py:Spiral.get_start_data"]}
{"id": "C07", "title": "Spiral constructor", "statement": "Spiral(...) raises NotEnoughInputArguments iff none of length/angle/cdot is given, ToManyOptionalArguments iff more than one is given; a given length is kept; a given non-zero cdot produces a spiral whose curvature rate is cdot; a given non-zero angle produces a spiral whose total heading change is (curvstart+curvend)/max(|curvstart|,|curvend|)*|angle|, hence |angle| in magnitude exactly when one of the curvatures is zero.", "quantifier": "every combination of optional inputs and every value (real arithmetic)", "why_tests_cant": "All combinations of optional arguments and all values.", "anchors": ["pyodrx/geometry.py:Spiral.__init__"]}
{"id": "C08", "title": "ParamPoly3 end point", "statement": "get_end_data returns start + rotation by h of (u(p),v(p)) with p=1 (normalized) or p=length (otherwise), heading h plus the tangent angle atan2(v'(p),u'(p)), and for normalized range the length equals the arc-length integral of sqrt(u'^2+v'^2) over [0,1].", "quantifier": "every coefficient set, range and pose (real arithmetic)", "why_tests_cant": "Infinite domain; one test with a straight line.", "anchors": ["pyodrx/geometry.py:ParamPoly3.get_end_data", "pyodrx/geometry.py:ParamPoly3._integrand"]}
{"id": "C09", "title": "ParamPoly3 start data", "statement": "get_start_data at the end pose with reversed heading recovers the original position (as it does for Line, Arc and Spiral). The code violates this: the reversed start heading and the length are recovered, but the position iff (u,v)=(0,0) or the tangent angle is an odd multiple of pi. The squared distance from the point returned to the original one is twice the squared distance from start to end, times one plus the cosine of the turn of the curve (4 times for a straight curve).", "quantifier": "every coefficient set and pose (real arithmetic)", "why_tests_cant": "Infinite domain; not covered by any test.", "anchors": ["pyodrx/geometry.py:ParamPoly3.get_start_data"]}
{"id": "C10", "title": "PlanView start arguments", "statement": "PlanView(x,y,h) succeeds iff all three or none of the start values are given and otherwise raises NotEnoughInputArguments; it is `fixed` iff all are given, and then its first geometry will start exactly there; otherwise at (0,0) heading 0.", "quantifier": "every combination of present/absent start values and every value", "why_tests_cant": "All combinations.", "anchors": ["pyodrx/geometry.py:PlanView.__init__"]}
{"id": "C11", "title": "Forward adjustment chains geometries", "statement": "After adjust_geometries() on a fresh PlanView the emitted geometries are the added ones in order, the first starts at the start point, each next one starts exactly where get_end_data of the previous one ends (position and heading), the s values are the cumulative sums of the lengths starting at 0, the total length is the sum of all lengths, and get_start_point/get_end_point return the first start and last end.", "quantifier": "every list of added geometries (any kinds, any length of list, shared objects allowed), every start pose", "why_tests_cant": "Unbounded list of geometries with mutable shared geometry objects.", "anchors": ["pyodrx/geometry.py:PlanView.add_geometry", "pyodrx/geometry.py:PlanView.adjust_geometries", "pyodrx/geometry.py:PlanView.get_total_length"]}
{"id": "C12", "title": "Backward adjustment is consistent with forward", "statement": "After adjust_geometries(from_end=True) on a fresh PlanView of Lines, Arcs and Spirals: get_end_point is the requested point with the reversed heading, and evaluating the added geometries forward from get_start_point reaches get_end_point (headings modulo 2*pi); every emitted geometry starts where the forward evaluation says it starts; the total length is the sum of the lengths. If a geometry has no usable length (an arc or spiral of zero length or angle), adjusting raises. For a ParamPoly3 it fails: the road starts with the right heading, but following the curve from the start that is written one arrives beside the requested point (finding, with the exact distance).", "quantifier": "every list of Line/Arc/Spiral geometries, every end pose (real arithmetic)", "why_tests_cant": "Unbounded list of geometries.", "anchors": ["pyodrx/geometry.py:PlanView.adjust_geometries", "pyodrx/geometry.py:_Geometry.get_start_data"]}
{"id": "C13", "title": "s coordinates after backward adjustment", "statement": "Every emitted geometry carries an s equal to the length of the road before it. The code violates this after backward adjustment of two or more geometries (s is None for all but one geometry and the remaining one is not 0); it holds after forward adjustment and for a single geometry.", "quantifier": "every list of geometries, both directions", "why_tests_cant": "Needs roads of arbitrary many geometries placed from their end; no test does that.", "anchors": ["pyodrx/geometry.py:PlanView.adjust_geometries"]}
{"id": "C14", "title": "Shape does not depend on placement", "statement": "Moving the start point of a PlanView by a rigid motion (rotation by any angle, translation by any vector) moves every emitted geometry start, and the end point, by the same rigid motion and leaves s values and lengths unchanged.", "quantifier": "every list of geometries without heading overrides, every rigid motion (real arithmetic)", "why_tests_cant": "All placements of all roads.", "anchors": ["pyodrx/geometry.py:PlanView.adjust_geometries"]}
{"id": "C15", "title": "Adjusting twice", "statement": "adjust_roads_and_lanes()/adjust_startpoints() is meant to be called once: on a network of at least two roads that is fully adjusted and has an unfixed road a further call raises UndefinedRoadNetwork, and a PlanView adjusted forward twice emits its geometries twice and reports twice the length. (Idempotence, which a user may expect, is false.)", "quantifier": "every adjusted network, every PlanView", "why_tests_cant": "Quantifies over all networks and histories.", "anchors": ["pyodrx/opendrive.py:OpenDrive.adjust_startpoints", "pyodrx/geometry.py:PlanView.adjust_geometries"]}
{"id": "C16", "title": "Road.get_end_point", "statement": "Road.get_end_point() returns the end point of the road. True for every road adjusted forward; for a road adjusted from its end the code returns the start point with reversed heading instead.", "quantifier": "every road", "why_tests_cant": "All roads in all networks.", "anchors": ["pyodrx/opendrive.py:Road.get_end_point"]}
{"id": "C17", "title": "Road placement terminates", "statement": "adjust_startpoints() terminates on every network: it performs at most len(roads) passes of its while loop and then returns or raises; there is no infinite run, whatever the links, cycles, self loops or dangling references.", "quantifier": "every network, including cyclic and malformed ones", "why_tests_cant": "Non-termination cannot be observed by a finite test and the space of networks is infinite.", "anchors": ["pyodrx/opendrive.py:OpenDrive.adjust_startpoints"]}
{"id": "C18", "title": "Every road is placed exactly once", "statement": "If adjust_startpoints() returns normally on a network of not yet adjusted roads, then every road is adjusted, exactly once: it carries exactly one emitted geometry per added geometry.", "quantifier": "every network of fresh roads, every dict order", "why_tests_cant": "Infinite set of networks and visiting orders.", "anchors": ["pyodrx/opendrive.py:OpenDrive.adjust_startpoints", "pyodrx/opendrive.py:OpenDrive.adjust_road_wrt_neighbour"]}
{"id": "C19", "title": "Linked roads meet", "statement": "After a normal return of adjust_startpoints() on fresh roads with zero lane offsets, every road that is not an anchor (fixed, or the first road when none is fixed) meets a linked road: there is a declared link (its own predecessor/successor link to a road, or the link of a connecting road to it) whose two road ends coincide in position and have opposite outgoing directions; and following such links from every road one reaches an anchor.", "quantifier": "every network of fresh roads (real arithmetic)", "why_tests_cant": "Infinite set of networks; geometric truth of the whole network.", "anchors": ["pyodrx/opendrive.py:OpenDrive.adjust_startpoints", "pyodrx/opendrive.py:OpenDrive.adjust_road_wrt_neighbour"]}
{"id": "C20", "title": "When placement succeeds", "statement": "On a well-formed network (ids resolvable, contact points given, evaluable geometries, connecting roads link to normal roads only, anchors are normal roads) adjust_startpoints() returns normally iff every road is reachable from an anchor along links, and otherwise raises UndefinedRoadNetwork; in particular success does not depend on the order in which non-first roads were added.", "quantifier": "every well-formed network, every insertion order", "why_tests_cant": "Infinite graphs and orders.", "anchors": ["pyodrx/opendrive.py:OpenDrive.adjust_startpoints"]}
{"id": "C21", "title": "Lane offset moves a road sideways", "statement": "Placing a road at a predecessor (successor) with lane_offset n moves its start (end) by 3*n to the left of its own driving direction relative to the zero-offset placement, and changes no heading.", "quantifier": "every offset, neighbour, contact point (real arithmetic)", "why_tests_cant": "Infinite domain.", "anchors": ["pyodrx/opendrive.py:OpenDrive.adjust_road_wrt_neighbour"]}
{"id": "C22", "title": "Anchors stay where they were put", "statement": "adjust_startpoints() leaves every fixed road starting exactly at its given start pose; when no road is fixed the first added road starts at (0,0) heading 0.", "quantifier": "every network of fresh roads on which the call returns", "why_tests_cant": "All networks.", "anchors": ["pyodrx/opendrive.py:OpenDrive.adjust_startpoints"]}
{"id": "C23", "title": "Unresolvable references", "statement": "adjust_startpoints() raises KeyError only if some road's predecessor/successor id is not the id of a road in the network. The code looks a junction id up among the roads, so a road linked to a junction whose id is not also a road id raises KeyError when visited unadjusted.", "quantifier": "every network", "why_tests_cant": "All networks; the examples always use a junction id that is accidentally a road id.", "anchors": ["pyodrx/opendrive.py:OpenDrive.adjust_startpoints"]}
{"id": "C24", "title": "Road links", "statement": "Over any history of add_successor/add_predecessor/add_neighbor calls a Road has at most one successor, one predecessor and two neighbours; the first accepted call wins, each further call raises ValueError and changes nothing; the emitted <link> children are exactly the accepted calls in order.", "quantifier": "every finite sequence of link calls", "why_tests_cant": "All histories.", "anchors": ["pyodrx/opendrive.py:Road.add_successor", "pyodrx/opendrive.py:Road.add_predecessor", "pyodrx/opendrive.py:Road.add_neighbor", "pyodrx/links.py:_Links"]}
{"id": "C25", "title": "Lane links of consecutive roads are reciprocal", "statement": "For two normal roads that name each other as successor (contact start) and predecessor, with distinct lane objects, no 2-cycle and equal lane counts in the touching sections, create_lane_links gives lane i of each side of the last section of the first road a successor link to the id of lane i of the same side of the first section of the second, and that lane a predecessor link back; all other lanes are unchanged; argument order does not matter.", "quantifier": "every pair of consecutive roads, any number of lanes", "why_tests_cant": "Unbounded number of lanes and heap shapes.", "anchors": ["pyodrx/links.py:create_lane_links", "pyodrx/links.py:_create_links_roads", "pyodrx/links.py:are_roads_consecutive"]}
{"id": "C26", "title": "Lane count mismatch", "statement": "create_lane_links on consecutive single-section roads raises NotSameAmountOfLanesError iff the left or the right lane counts differ. With several sections the code compares with the last section of the second road instead of the touching one. When only the right counts differ the left lanes have already been linked when the error is raised.", "quantifier": "every pair of consecutive roads", "why_tests_cant": "Unbounded.", "anchors": ["pyodrx/links.py:_create_links_roads"]}
{"id": "C27", "title": "Unrelated roads are not linked", "statement": "create_lane_links changes nothing (and does not raise) for two normal roads that are not mutually successor/predecessor, and for a connecting road (with predecessor and successor) and a normal road it is not linked to. A connecting road without a link to the other road never gets a lane link that is written, also if the other road is linked to it or the call raises.", "quantifier": "every pair of roads, every lane heap", "why_tests_cant": "Infinite.", "anchors": ["pyodrx/links.py:create_lane_links", "pyodrx/links.py:_get_related_lanesection"]}
{"id": "C28", "title": "Lane links of connecting roads", "statement": "For a connecting road linked to a single-section normal road with enough lanes, create_lane_links adds to lane i of each side of the connecting road one link of the right type with id sign*id(lane i of the road)+lane offset, where sign is +1 iff travelling direction is kept (successor at start / predecessor at end); the normal road's lanes are not modified; the linked id is an existing lane of the road when offset is zero and both sides have equally many lanes.", "quantifier": "every connecting road/normal road pair, any lane counts, both contact points", "why_tests_cant": "Unbounded.", "anchors": ["pyodrx/links.py:_create_links_connecting_road", "pyodrx/links.py:_get_related_lanesection"]}
{"id": "C29", "title": "Lane section used for connecting roads", "statement": "The lane links of a connecting road refer to the lane section of the normal road that touches it. The code violates this for roads with several sections: it always uses the first section for a predecessor and the last for a successor, whatever the contact point.", "quantifier": "every pair with several lane sections", "why_tests_cant": "No test has more than one lane section.", "anchors": ["pyodrx/links.py:_get_related_lanesection"]}
{"id": "C30", "title": "Whole-network lane linking", "statement": "After adjust_roads_and_lanes() returns on a network of normal roads with unshared lanes and consistent links, every lane at the touching end of a road with a mutual successor has exactly one new successor link (to the lane with the same number), symmetrically for predecessors, and lanes of ends without mutual link got none: the pairwise loop over all combinations links each pair exactly once.", "quantifier": "every network, every insertion order", "why_tests_cant": "Unbounded number of roads; all pairs.", "anchors": ["pyodrx/opendrive.py:OpenDrive.adjust_roads_and_lanes", "pyodrx/links.py:create_lane_links"]}
{"id": "C31", "title": "LaneLinker links are applied once", "statement": "Adding any number of lane sections with the same LaneLinker(s) applies each lane link exactly once: the predecessor lane gets one successor link with the id of the successor lane, the successor lane one predecessor link back. The sections are kept and emitted in the order in which they were added.", "quantifier": "every list of links, every number of add_lanesection calls", "why_tests_cant": "All histories.", "anchors": ["pyodrx/lane.py:Lanes.add_lanesection", "pyodrx/links.py:LaneLinker"]}
{"id": "C32", "title": "Lane numbering", "statement": "For every interleaving of add_left_lane/add_right_lane with distinct lane objects the center lane has id 0, the i-th left lane id i, the i-th right lane id -i; ids in a section are pairwise distinct. Re-adding the same object breaks this.", "quantifier": "every finite interleaving", "why_tests_cant": "All interleavings.", "anchors": ["pyodrx/lane.py:LaneSection.__init__", "pyodrx/lane.py:LaneSection.add_left_lane", "pyodrx/lane.py:LaneSection.add_right_lane"]}
{"id": "C33", "title": "Junction connection ids", "statement": "Connections added to a Junction without explicit ids get ids 0,1,2,... in order, hence unique; an explicit id is kept; mixing explicit and automatic ids can collide.", "quantifier": "every sequence of add_connection calls", "why_tests_cant": "All histories.", "anchors": ["pyodrx/links.py:Junction.add_connection", "pyodrx/links.py:Connection._set_id"]}
{"id": "C34", "title": "Link getters", "statement": "get_successor_id/type/contact_point and the predecessor versions return the attribute of the last added link of that kind and None iff there is none; for a Road they agree with road.successor/road.predecessor after any history.", "quantifier": "every list of links", "why_tests_cant": "All histories.", "anchors": ["pyodrx/links.py:_Links"]}
{"id": "C35", "title": "Object and signal ids are unique", "statement": "Over any history of add_object/add_signal calls (single or list, on any roads) with each object added once, ids of objects are pairwise distinct as strings, and so are ids of signals. Adding the same object twice renames it, so the same id is emitted twice.", "quantifier": "every finite history over all roads in the process", "why_tests_cant": "Global mutable state; all histories.", "anchors": ["pyodrx/signals_objects.py:_SignalObjectBase._update_id", "pyodrx/opendrive.py:Road.add_object", "pyodrx/opendrive.py:Road.add_signal"]}
{"id": "C36", "title": "User ids are respected", "statement": "_update_id keeps an explicit id that is not yet used, and otherwise assigns the first free non-negative integer at or after the class counter; the counter never decreases; objects and signals do not influence each other.", "quantifier": "every registry state reachable or not", "why_tests_cant": "All histories.", "anchors": ["pyodrx/signals_objects.py:_SignalObjectBase._update_id"]}
{"id": "C37", "title": "Id generation terminates", "statement": "The search loop for a free id stops after at most len(used ids) increments.", "quantifier": "every registry state", "why_tests_cant": "Non-termination cannot be observed by tests.", "anchors": ["pyodrx/signals_objects.py:_SignalObjectBase._update_id"]}
{"id": "C38", "title": "Roadside objects", "statement": "add_object_roadside raises RoadsAndLanesNotAdjusted iff the road is not adjusted and otherwise adds exactly one object per lane section and requested side: on the left t = sum of left widths + tOffset, heading pi, on the right t = -(sum of right widths + tOffset), heading 0, s = section start + sOffset, with one repeat reaching exactly the end of the road; the prototype is not modified.", "quantifier": "every road, section list, lane list, offsets, side", "why_tests_cant": "Unbounded.", "anchors": ["pyodrx/opendrive.py:Road.add_object_roadside"]}
{"id": "C39", "title": "Object outline attributes", "statement": "For every combination of radius/width/length given to Object, the emitted element has either radius and neither width nor length, or both width and length and no radius, or none of the three.", "quantifier": "every combination and value", "why_tests_cant": "All combinations.", "anchors": ["pyodrx/signals_objects.py:Object.__init__", "pyodrx/signals_objects.py:Object.get_attributes"]}
{"id": "C40", "title": "Repeat defaults", "statement": "repeat() always emits length, distance, s, tStart, tEnd, heightStart, heightEnd, zOffsetStart, zOffsetEnd, each the given value or else the parent's; optional width/length/radius entries appear iff given. When neither the call nor the parent has a height the code emits the text None.", "quantifier": "every combination of arguments", "why_tests_cant": "2^13 combinations and all values.", "anchors": ["pyodrx/signals_objects.py:Object.repeat"]}
{"id": "C41", "title": "Road mark line defaults", "statement": "RoadMark creates a line iff one of length/space/toffset/rule is given and non-zero; for solid and broken marks non-zero given values are kept and the documented defaults used otherwise. For other types a given space is overwritten by the length.", "quantifier": "every type and combination of values", "why_tests_cant": "All combinations.", "anchors": ["pyodrx/lane.py:RoadMark.__init__"]}
{"id": "C42", "title": "Lane section element", "statement": "LaneSection.get_element emits, in this order, <left> iff there are left lanes, <center> with exactly the center lane, <right> iff there are right lanes, each lane in order of addition with its id; it raises ValueError iff a lane without id is included.", "quantifier": "every section", "why_tests_cant": "Unbounded.", "anchors": ["pyodrx/lane.py:LaneSection.get_element", "pyodrx/lane.py:Lane.get_element"]}
{"id": "C43", "title": "Document structure", "statement": "OpenDrive.get_element emits one header, then every road in insertion order, then every junction in insertion order; adding a road with an id already used replaces the old road in its position; each road element has link, planView, lanes, then signals iff any, then objects iff any, and its length attribute is the planview total length.", "quantifier": "every sequence of add_road/add_junction", "why_tests_cant": "All histories.", "anchors": ["pyodrx/opendrive.py:OpenDrive.add_road", "pyodrx/opendrive.py:OpenDrive.get_element", "pyodrx/opendrive.py:Road.get_element"]}
{"id": "C44", "title": "Enumeration texts", "statement": "enum2str gives distinct members of the same enumeration distinct texts, containing no underscore; on identifiers in general it is injective up to '_' and ' '.", "quantifier": "every member of every enumeration; every name", "why_tests_cant": "Whole tables and all strings.", "anchors": ["pyodrx/helpers.py:enum2str", "pyodrx/enumerations.py"]}
{"id": "C45", "title": "create_road", "statement": "create_road(geometry,id,l,r,...) yields a road with one lane section with center id 0, l left lanes with ids 1..l and r right lanes with ids -1..-r, all of the requested width, the outermost of each side marked solid and the others broken, the geometries in the given order, unadjusted and unlinked; lane objects are fresh and pairwise distinct.", "quantifier": "every l, r, geometry list", "why_tests_cant": "Unbounded.", "anchors": ["pyodrx/generators.py:create_road", "pyodrx/generators.py:standard_lane"]}
{"id": "C46", "title": "create_straight_road", "statement": "create_straight_road(id,length,junction,n,w) yields n lanes of width w per side with ids 1..n and -1..-n; after adjusting alone it starts at the origin, ends at (length,0) with heading 0 and has total length `length`.", "quantifier": "every n, length, width", "why_tests_cant": "Unbounded.", "anchors": ["pyodrx/generators.py:create_straight_road"]}
{"id": "C47", "title": "create_cloth_arc_cloth turn", "statement": "The road built by create_cloth_arc_cloth(k,arc_angle,cloth_angle,...) with k>0 and angles of equal sign (positive or negative), once adjusted, turns by exactly arc_angle + 2*cloth_angle*(1+cloth_start/k) for 0<cloth_start<=k, although for negative angles it hands Arc an angle of the wrong sign. With cloth_angle=0 (violation) the road is made without complaint but adjusting it in either direction raises TypeError.", "quantifier": "every curvature, angles, start pose (real arithmetic)", "why_tests_cant": "Infinite domain and depends on the evaluation history of the Arc.", "anchors": ["pyodrx/generators.py:create_cloth_arc_cloth"]}
{"id": "C48", "title": "create_junction_roads", "statement": "For n>=1 roads with equal numbers (>=1) of lanes in the sections it looks at (the first of every road, the last of all but the first) and no conflicting links, create_junction_roads returns exactly one connecting road for each pair i<j, in lexicographic order, with ids startnum, startnum+1, ..., road_type the junction id, predecessor road i (contact end for i=0, start otherwise) and successor road j (contact start); every input road got exactly one junction link. The code looks at the wrong end of roads with several lane sections: the connecting roads get the number and width of the lanes at the end of their first road that is away from the junction.", "quantifier": "every n, lane number, angles", "why_tests_cant": "Unbounded number of roads.", "anchors": ["pyodrx/generators.py:create_junction_roads", "pyodrx/generators.py:get_lanes_offset"]}
{"id": "C49", "title": "Junction lane count mismatch", "statement": "create_junction_roads on roads with different lane counts (in their first sections) raises NotSameAmountOfLanesError. The code violates this: the exception class is not imported in generators.py, so a NameError is raised.", "quantifier": "every pair of roads with different lane counts", "why_tests_cant": "All inputs; no test.", "anchors": ["pyodrx/generators.py:get_lanes_offset"]}
{"id": "C50", "title": "create_junction", "statement": "create_junction returns a junction with two connections per connecting road (successor then predecessor), ids 0..2n-1, naming the right incoming and connecting roads and contact points, with one lane link per lane; with zero offsets the lane links agree with the lane links create_lane_links puts on the connecting road. With a non-zero successor offset a `to` lane does not exist on the connecting road, whether it has lanes on both sides or on one. For connecting roads with lanes it returns exactly if every predecessor and successor is there and has the id (as a Python value) of one of the roads given, and raises AttributeError otherwise.", "quantifier": "every list of connecting roads", "why_tests_cant": "Unbounded.", "anchors": ["pyodrx/generators.py:create_junction", "pyodrx/generators.py:_create_junction_links"]}
{"id": "C51", "title": "Forced headings", "statement": "If add_geometry is given a heading for every geometry of a PlanView, each geometry emitted by adjust_geometries() has exactly its given heading, the positions still join and the s values are still the cumulative lengths.", "quantifier": "every list of geometries with headings, every start pose", "why_tests_cant": "Unbounded list of geometries and headings.", "anchors": ["pyodrx/geometry.py:PlanView.add_geometry", "pyodrx/geometry.py:PlanView.adjust_geometries"]}
{"id": "C52", "title": "Partially forced headings", "statement": "Headings given to add_geometry for some but not all geometries make adjust_geometries() raise IndexError, whichever geometries they were given for; adjust_geometries(from_end=True) ignores all given headings.", "quantifier": "every list of geometries with headings given for a non-empty proper subset of them", "why_tests_cant": "All subsets of all lists.", "anchors": ["pyodrx/geometry.py:PlanView.add_geometry", "pyodrx/geometry.py:PlanView.adjust_geometries"]}
{"id": "C53", "title": "Joints that are never linked", "statement": "Lane links are created at every joint of two normal roads. The code violates this: roads joined end to end or start to start, and a road that is its own successor and predecessor (a closed loop), get no lane links at all.", "quantifier": "every pair of normal roads joined head to head, every network with a self-loop", "why_tests_cant": "The claim that no lane link appears ranges over all networks, lane counts and insertion orders.", "anchors": ["pyodrx/links.py:are_roads_consecutive", "pyodrx/links.py:create_lane_links", "pyodrx/opendrive.py:OpenDrive.adjust_roads_and_lanes"]}
{"id": "C54", "title": "Emitted geometries can be read back and join", "statement": "After adjust_geometries(), the <planView> that get_element() emits, read by an independent OpenDRIVE reader that knows only element names, attribute names and the standard's meaning of the curve elements, is a sequence of curves in the order of the calls, with s values and lengths that add up, in which each curve starts at the position (and heading, if none was forced) at which the reader computes the previous one to end, beginning at the start of the road. The code violates this for adjust_geometries(from_end=True) with two or more geometries: the s attribute is the text None and the planView cannot be read.", "quantifier": "every list of geometries with known parameter range, every start pose, any forced headings", "why_tests_cant": "Unbounded lists and real parameters; the tests only print the XML.", "anchors": ["pyodrx/geometry.py:PlanView.get_element", "pyodrx/geometry.py:PlanView.adjust_geometries", "pyodrx/geometry.py:_Geometry.get_element"]}
{"id": "C55", "title": "Road links survive emission", "statement": "Reading back the <link> element of any road yields exactly the successor, predecessor and neighbor links that the user's add_* calls made and that were not refused, in the order of the calls, with type, element id, contact point and direction as given. Lane links of the type None, which the automatic linking can make between two connecting roads, are not written.", "quantifier": "every sequence of add_successor/add_predecessor/add_neighbor calls with every argument", "why_tests_cant": "Unbounded histories of calls, including refused duplicates.", "anchors": ["pyodrx/links.py:_Links.get_element", "pyodrx/links.py:_Link.get_element", "pyodrx/opendrive.py:Road.add_successor", "pyodrx/opendrive.py:Road.add_predecessor", "pyodrx/opendrive.py:Road.add_neighbor"]}
{"id": "C56", "title": "Junctions survive emission", "statement": "Reading back the <junction> element yields its name and id and the connections in the order added, each with id, incoming road, connecting road, contact point and all its lane links in order; connections without an id get their position, and the first id passed is kept.", "quantifier": "every junction, every list of connections and of lane links", "why_tests_cant": "Unbounded lists.", "anchors": ["pyodrx/links.py:Junction.get_element", "pyodrx/links.py:Junction.add_connection", "pyodrx/links.py:Connection.get_element", "pyodrx/links.py:LaneLink.get_element"]}
{"id": "C57", "title": "Lanes survive emission", "statement": "Reading back a <laneSection> yields its s and the left lanes in the order they were added (ids 1, 2, ...), the center lane (id 0) and the right lanes in the order they were added (ids -1, -2, ...), each with its type, level, links, width polynomial and road mark with lines as given by the user.", "quantifier": "every lane section, every number of lanes, every road mark made by the constructors", "why_tests_cant": "Unbounded numbers of lanes and lines; the tests only print the XML.", "anchors": ["pyodrx/lane.py:LaneSection.get_element", "pyodrx/lane.py:Lane.get_element", "pyodrx/lane.py:RoadMark.get_element", "pyodrx/lane.py:RoadLine.get_element"]}
{"id": "C58", "title": "Signals and objects survive emission", "statement": "Reading back a <signal> or <object> element yields exactly the values given to the constructor, optional ones exactly if they were given (angles of zero count as not given, the country of a signal is in upper case). The type of an object is written with the text of the standard for each of the object types. A dependency element has exactly its id and type. The code violates this for a signal with a value but no unit: its unit is read as the text None.", "quantifier": "every signal and object and every combination of optional arguments", "why_tests_cant": "2^n combinations of optional arguments with arbitrary values.", "anchors": ["pyodrx/signals_objects.py:Signal.get_element", "pyodrx/signals_objects.py:Object.get_element", "pyodrx/signals_objects.py:_SignalObjectBase", "pyodrx/signals_objects.py:Dependency.get_element"]}
{"id": "C59", "title": "The whole document survives emission", "statement": "Reading back the document emitted by OpenDrive.get_element() yields its name, all roads in the order added (id, junction, length, name, rule, links, geometries, lane sections, signals, objects) and all junctions in the order added, as the user made them: nothing is lost, duplicated, reordered or attached to another road. The header has the name given, the date of writing and the version 1.5.", "quantifier": "every document of every size", "why_tests_cant": "Unbounded documents.", "anchors": ["pyodrx/opendrive.py:OpenDrive.get_element", "pyodrx/opendrive.py:Road.get_element"]}
{"id": "C60", "title": "Arguments of Arc and ParamPoly3", "statement": "Arc(curvature, length, angle) raises NotEnoughInputArguments iff neither length nor angle is given, ToManyOptionalArguments iff both are, ValueError iff exactly one is given and the curvature is 0, and otherwise keeps what was given; ParamPoly3 raises ValueError iff prange is arcLength and no length is given and otherwise keeps what was given. The checks are incomplete: an Arc of length or angle 0 is accepted but no plan view with it can be adjusted.", "quantifier": "every combination of arguments, every plan view", "why_tests_cant": "All combinations of real arguments; all plan views containing the arc.", "anchors": ["pyodrx/geometry.py:Arc.__init__", "pyodrx/geometry.py:ParamPoly3.__init__", "pyodrx/geometry.py:PlanView.adjust_geometries"]}
{"id": "C61", "title": "The junction program", "statement": "For any number m >= 2 of unlinked normal roads with the same lanes and any angles, create_junction_roads, create_junction, add_road/add_junction and adjust_roads_and_lanes (the program of examples/full_junction.py) succeed: one connecting road per pair, two connections per connecting road, every road is placed (the first at the origin, the others where the connecting roads from the first end), and every lane of a connecting road is linked to the lane it continues at both ends. The code requires, undocumented, that the junction id is also the id of a road: otherwise KeyError.", "quantifier": "every number of roads, geometry of the roads, angles, radius, spiral and arc part, lane count, id assignment", "why_tests_cant": "The number of connecting roads grows quadratically and the angles are real numbers; a test runs one crossing.", "anchors": ["examples/full_junction.py", "pyodrx/generators.py:create_junction_roads", "pyodrx/generators.py:create_junction", "pyodrx/opendrive.py:OpenDrive.adjust_roads_and_lanes"]}
{"id": "C62", "title": "The connecting roads close", "statement": "In the network of C61 a connecting road ends where the road it leads to begins: exactly if it starts at the first road; otherwise up to a gap bounded by the differences of the tangent lengths and the turn missing from spiral and arc parts. For crossings with right angles and parts that add up to one, the gap is at most 70 r^2/10^9 in x and y and 4 r/10^9 in heading; likewise for crossings in which all turns are equal (three roads at 120 degrees).", "quantifier": "every number of roads, every radius, every spiral and arc part, every clothoid", "why_tests_cant": "The gap is a function of real parameters through Fresnel integrals; a test computes it in one point.", "anchors": ["pyodrx/generators.py:create_junction_roads", "pyodrx/generators.py:create_cloth_arc_cloth", "pyodrx/opendrive.py:OpenDrive.adjust_startpoints", "examples/full_junction.py"]}
{"id": "C63", "title": "The written file is read back as the emitted document", "statement": "write_xml(filename, prettyprint) writes, to the given name or by default to <name>.xodr, a text that an XML reader reads as exactly the tree get_element returns: every tag, attribute and value. Without pretty printing this holds character for character and the file is ASCII, whatever quotes, brackets, line breaks and non-ASCII characters the names and ids contain. With pretty printing it holds exactly if no value contains a line break or a tab; those are read as spaces. If a value contains a character XML does not allow, pretty printing raises ExpatError and plain printing writes an unreadable file. If get_element raises, write_xml raises the same. The conditions are exact: the pretty printed file is written, and the plain file is XML, if and only if the texts of the user that are written (names, rules, ids, types, countries, units) have only characters that XML allows; the pretty printed file is read as the element that was emitted if and only if they have no line breaks and tabs either.", "quantifier": "every document (roads, lanes, geometries, junctions, signals, objects), every name and id, both modes", "why_tests_cant": "Escaping must be right for every text a user may put into a name, and for every shape of the tree; tests only print small trees with letters in the names.", "anchors": ["pyodrx/helpers.py:printToFile", "pyodrx/opendrive.py:OpenDrive.write_xml", "pyodrx/opendrive.py:OpenDrive.get_element"]}
{"id": "C64", "title": "The file is read as the document the user described", "statement": "A reader that is given only the text written by write_xml, and that knows XML and the OpenDRIVE element and attribute names but nothing of pyodrx, recovers the document: its name; its roads in the order they were added, each with id, junction, length, name, rule, links, plan view geometries, lane sections with lanes, widths, marks and lane links, signals and objects with their repeats; its junctions in order with their connections and lane links. Numbers come back as the numbers that were printed, ids and names as their text, also if they contain quotes, brackets or other characters with a meaning in XML. With pretty printing this needs values without line breaks and tabs.", "quantifier": "every document that get_element emits and whose plan views are readable (C54), both print modes, every file name", "why_tests_cant": "It composes emission, printing, escaping and reading for all documents at once; tests print single elements and never read them back.", "anchors": ["pyodrx/opendrive.py:OpenDrive.write_xml", "pyodrx/opendrive.py:OpenDrive.get_element", "pyodrx/opendrive.py:Road.get_element", "pyodrx/helpers.py:printToFile"]}
{"id": "C65", "title": "The roads of the written file join", "statement": "Whoever reads the document (or the file) of a network that adjust_roads_and_lanes has placed finds, computed from the geometries and links in it alone: the geometries of each road form one line without gaps and kinks that starts at s = 0 and has the length of the road; each road is either an anchor (a road the user fixed, or the first road if none is fixed) or is linked to another road of the document which it joins - the end of the one and the end of the other are at the same place, up to the declared lane offset, with opposite outgoing directions - and going on from road to road one comes to an anchor. The document can be read if every road that is not an anchor has one geometry. The file contains exactly the roads of the network, in order.", "quantifier": "every network of roads with any number of geometries (any curve type), links, connecting roads, lane offsets for which adjust_roads_and_lanes returns; both print modes", "why_tests_cant": "Placement, evaluation, emission, printing and reading are composed for every network; tests never read a written network and compare the ends of its roads.", "anchors": ["pyodrx/opendrive.py:OpenDrive.adjust_roads_and_lanes", "pyodrx/opendrive.py:OpenDrive.adjust_startpoints", "pyodrx/opendrive.py:OpenDrive.write_xml", "pyodrx/geometry.py:PlanView.get_element"]}
{"id": "C66", "title": "The junction in the written file", "statement": "Whoever reads the document (or the file) of a junction program - two or more roads with the same number of lanes, create_junction_roads, create_junction, add_road for all roads, add_junction, adjust_roads_and_lanes - finds, computed from the geometries and links in it alone: all given roads and, numbered from startnum, one connecting road for each pair of them, each one line without gaps; every connecting road carries the junction id, is linked to its two roads, begins exactly at its first road (from the first road of the list it also ends exactly at the second), and each of its lanes has exactly one predecessor and one successor link, to the lane it continues; every given road is linked to the junction; and the one junction element lists two connections per connecting road, one for each end, with the id of the incoming road and one lane link per lane. Where the roads meet at right angles every connecting road ends within 70 r^2/10^9 of the road it leads to. examples/full_junction.py as it is yields such a file.", "quantifier": "every number of roads >= 2, lane count, curve and length of the roads, angles, radius up to 10^9, parts, junction id and start number; both print modes", "why_tests_cant": "Generator, junction, placement, lane linking, emission, printing and reading are composed for every number of roads and all angles; tests only check single calls and never read a written junction.", "anchors": ["examples/full_junction.py", "pyodrx/generators.py:create_junction_roads", "pyodrx/generators.py:create_junction", "pyodrx/opendrive.py:OpenDrive.adjust_roads_and_lanes", "pyodrx/opendrive.py:OpenDrive.write_xml", "pyodrx/links.py:Connection.get_element"]}
{"id": "C67", "title": "Distances and length of a road in floating point arithmetic", "statement": "Computed in any arithmetic that rounds (in particular in doubles): adjusting a planview whose geometries have a usable length never fails because of rounding; the s of the first geometry is exactly 0; each next s - and, after the last geometry, the length of the road - is the s before plus the emitted length up to u(|s| + 6|length|), where u is the unit roundoff (2^-53); s never decreases where the emitted length is not negative; and the length of the road is the sum of the emitted lengths up to a relative error of (1+6u)^n - 1 for n geometries.", "quantifier": "every arithmetic with rounding (unit roundoff at most 1/1000, faithful sine and cosine), every start, every list of lines, arcs, spirals and polynomials with any numbers, any forced headings", "why_tests_cant": "Rounding errors depend on all the numbers; tests compare a few roads with a tolerance. An arc recomputes its length each time it is evaluated, so the emitted length and the one added to s differ.", "anchors": ["pyodrx/geometry.py:PlanView.adjust_geometries", "pyodrx/geometry.py:PlanView.get_total_length", "pyodrx/geometry.py:Arc.get_end_data"]}
{"id": "C68", "title": "Consecutive geometries fit in floating point arithmetic", "statement": "Computed in any arithmetic that rounds (in particular in doubles): after adjusting a planview from its start, each geometry starts at the exact end of the line or arc before it - the one a reader computes from its emitted x, y, hdg, length and curvature - up to u(3|x| + 6|length| + (4|hdg| + 26) radius) in x (likewise in y) and up to u(|hdg| + 3|curvature length|) in the heading (exactly, after a line); the same holds of the end of the planview, to which other roads are attached.", "quantifier": "every arithmetic with rounding (unit roundoff at most 1/1000, faithful sine and cosine), every start, every list of geometries of which the one before the joint is a line or an arc with any numbers", "why_tests_cant": "The gap must be small at every joint of every road; tests look at a few joints with a fixed tolerance.", "anchors": ["pyodrx/geometry.py:PlanView.adjust_geometries", "pyodrx/geometry.py:Line.get_end_data", "pyodrx/geometry.py:Arc.get_end_data"]}
{"id": "C69", "title": "Placing a network in floating point arithmetic", "statement": "Computed in any arithmetic that rounds (in particular in doubles): on roads whose links are well declared and whose geometries have a usable length, adjust_startpoints returns normally exactly if every road can be reached from an anchor, and raises UndefinedRoadNetwork otherwise - rounding never makes it fail. After it returned, every road is an anchor or was put at another road by a declared link: their ends are in opposite directions up to u(2.1|hdg| + 16) and at the same point - the very same numbers if there is no lane offset, else shifted by 3 times the lane offset to the side up to u|offset|(|x| + 4|hdg| + 50) in x and likewise in y; following these joints one comes to an anchor. And the written geometries of every road (without forced headings) lead from its start to its end, in the order they are written or in the reverse one, each starting exactly where the one before is taken to end, which for a line or arc differs from its exact end by at most the bounds of C68 and C70.", "quantifier": "every arithmetic with rounding (unit roundoff at most 1/1000, faithful sine and cosine), every number of roads, any link graph, lane offsets and geometries; joints: lines, arcs, spirals and polynomials; inside roads: the bounds are for lines and arcs", "why_tests_cant": "The errors of all roads on the way to an anchor could add up or make a road miss its neighbour; tests only compare a few small networks.", "anchors": ["pyodrx/opendrive.py:OpenDrive.adjust_startpoints", "pyodrx/opendrive.py:OpenDrive._adjust_road_wrt_neighbour", "pyodrx/geometry.py:PlanView.adjust_geometries", "pyodrx/geometry.py:PlanView.set_start_point"]}
{"id": "C70", "title": "Roads adjusted from their end in floating point arithmetic", "statement": "Computed in any arithmetic that rounds (in particular in doubles): adjusting a planview from its end never fails because of rounding if all geometries have a usable length; the end of the planview is exactly at the given point and looks in the opposite of the given direction up to u(|hdg| + 6.4); the exact end of each emitted line or arc is the start of the one emitted before it (of the first: the end of the planview) up to u(3|x| + |length|(4|hdg| + 8|curvature length| + 23) + (5|hdg| + 40) radius) in x, likewise in y, and up to u(4|hdg| + 8|curvature length| + 23) in the heading; the planview starts exactly where the last emitted geometry does; the length of the road is the sum of the emitted lengths up to a relative error of (1+6u)^n - 1.", "quantifier": "every arithmetic with rounding (unit roundoff at most 1/1000, faithful sine and cosine), every given end, every list of geometries with any numbers (for the bounds at a joint: a line or an arc)", "why_tests_cant": "Going backwards the heading is turned by the rounded pi and the curvature negated at every geometry; tests look at few roads with a fixed tolerance.", "anchors": ["pyodrx/geometry.py:PlanView.adjust_geometries", "pyodrx/geometry.py:Line.get_start_data", "pyodrx/geometry.py:Arc.get_start_data"]}
{"id": "C71", "title": "Without loops every declared link is a joint", "statement": "If the declared links have no loops (no more joints than roads that are not anchors) and adjust_startpoints returned normally, then not only one link of every road (C19) but every declared link joins: the two road ends it names are at the same point in opposite directions, up to the lane offset of that of the two roads which was moved; without lane offsets exactly, in floating point arithmetic up to the bounds of C69; and a reader of the document finds it so for all links in it. Finding: the lane offset given to a connecting road at its successor is ignored if the connecting road continues an anchor, because then the successor is the road that is moved.", "quantifier": "every number of roads, every loop-free link graph with any number of anchors and connecting roads, all lane offsets and geometries, real numbers and every rounding arithmetic", "why_tests_cant": "That no link is left open depends on the whole graph and the order of passes; tests only look at single links of small networks.", "anchors": ["pyodrx/opendrive.py:OpenDrive.adjust_startpoints", "pyodrx/opendrive.py:OpenDrive._adjust_road_wrt_neighbour"]}
{"id": "C72", "title": "Without loops the order of add_road does not matter", "statement": "If the declared links have no loops, no two roads share geometry objects and the roads are added in another order (keeping the first one unless some road has a given start pose), then adjust_startpoints succeeds for the one order exactly if it does for the other, and every road gets the same planview and every geometry the same state, number for number, not only in real but also in floating point arithmetic. The documents differ in the order of the road elements only, and after adjust_roads_and_lanes every lane has the same links up to their order. Finding: with a loop the order decides: if road 2 follows road 1, and the connecting road 3 leads from road 1 to road 2, then road 2 is at the end of road 1 if added before road 3, and at the end of road 3 if added after it.", "quantifier": "every number of roads, every loop-free link graph with any anchors, connecting roads, lane offsets and geometries, every permutation of the roads, every arithmetic", "why_tests_cant": "It is about two runs and all permutations: the order decides which pass places which road and with respect to which neighbour; tests add roads in one order.", "anchors": ["pyodrx/opendrive.py:OpenDrive.add_road", "pyodrx/opendrive.py:OpenDrive.adjust_startpoints", "pyodrx/opendrive.py:OpenDrive.adjust_roads_and_lanes"]}
{"id": "C73", "title": "Roads and PlanView objects", "statement": "If every road has its own PlanView object, adjust_startpoints behaves as if the planviews were part of the roads (so everything claimed about road networks holds of the objects). If two roads were given the same PlanView object without a start pose, adjust_startpoints always raises an exception (two roads in a row: UndefinedRoadNetwork), because each object is counted once. Finding: if n roads have the same PlanView object with a given start pose, adjust_startpoints returns, but each of the roads then has the geometries n times, one copy after the other.", "quantifier": "every number of roads, all links, any assignment of PlanView objects to roads, every arithmetic", "why_tests_cant": "Aliasing shows only in histories of several roads; tests that reuse a planview do not adjust the network.", "anchors": ["pyodrx/opendrive.py:OpenDrive.adjust_startpoints", "pyodrx/opendrive.py:Road.__init__", "pyodrx/geometry.py:PlanView.adjust_geometries"]}
{"id": "C74", "title": "Linked lanes touch", "statement": "In the document written after adjust_roads_and_lanes on a network without loops and without lane offsets, whose linked roads have corresponding lanes of equal width where they meet, every lane link leads to a lane that is physically the continuation: the lane named by the link exists at the linked end of the linked road, and both lanes have the same inner and the same outer edge there. Every lane at a linked end of a connecting road, and at the common end of two normal roads that name each other, has exactly one such link. Lanes that had no links before get links only in the first section (predecessor) and the last section (successor) of a road. Finding: with a lane offset n the linked lane is the one that is there only if all lanes are 3 wide (the width is hard-coded), the driving directions agree and the offset does not lead across the reference line of the other road (and the offset is the one by which the road was placed).", "quantifier": "every network without loops, any numbers of lanes and lane sections, any width polynomials, any geometries, both contact points at both ends", "why_tests_cant": "Lane ids and positions are computed by different code; whether they agree can only be seen in the geometry of whole networks, for all of them.", "anchors": ["pyodrx/opendrive.py:OpenDrive.adjust_roads_and_lanes", "pyodrx/links.py:create_lane_links", "pyodrx/opendrive.py:OpenDrive._adjust_road_wrt_neighbour", "pyodrx/lane.py:Lane.get_element"]}
{"id": "C75", "title": "Roads that form a tree", "statement": "If the joints declared by the links of the roads form a tree (every road except the anchor is reached by exactly one joint), adjust_roads_and_lanes succeeds and puts every road where the tree says: its end meets the end of the road nearer to the anchor, shifted by the lane offset given to the road itself. The order in which the roads were added has no influence, and the lane offset that the nearer road gives for the same joint has none either. A reader can read the document also if roads consist of several geometries, as long as these are placed by their start, and finds all the joints in it. In floating point arithmetic the ends meet up to the rounding errors of C69.", "quantifier": "every network whose joints form a tree, any number of roads and branches, any geometries and offsets, any order of adding", "why_tests_cant": "Which of two roads is placed at which depends on the order of the loop in adjust_startpoints; that it does not matter must hold for all trees and all orders.", "anchors": ["pyodrx/opendrive.py:OpenDrive.adjust_startpoints", "pyodrx/opendrive.py:OpenDrive._adjust_road_wrt_neighbour", "pyodrx/opendrive.py:OpenDrive.adjust_roads_and_lanes"]}
{"id": "C76", "title": "A network program writes the network that was ordered", "statement": "A program in the style of the examples directory (road_split.py, road_merge.py, highway_example.py, two_roads.py, junction_trippel_twoway.py and others) makes roads with create_road, or with PlanView (with or without a given start), Lane, LaneSection, Lanes and LaneLinker (any lane types, width polynomials and numbers of lane sections), links them with add_predecessor and add_successor, describes junctions with create_junction or with Junction and Connection and calls adjust_roads_and_lanes and write. If the calls fit together (different ids, links that name existing roads, joints that form trees, one from each road whose start is given, or one from the first road if no start is given, enough lanes for each connecting road, lane offsets only where the road is put somewhere and lanes are 3 wide), the program raises no exception, and somebody who reads the document finds what was ordered: the roads in order with their curves in one line, their links, lane sections and lanes, and between the sections of a road exactly the lane links that were given to the LaneLinker, in both directions; roads start where it was said, and if nothing was said the first one starts at the origin; all linked ends meet, shifted by the lane offset; every lane is linked to exactly one lane of the neighbour, which has the same two edges, and there are no other lane links; junctions made by hand have exactly the connections and lane links they were given, and those that name linked lanes pair lanes with the same edges; the junctions of create_junction have two connections for every connecting road that name the right roads and ends and pair lanes with the same edges. The exception is an offset at the end of a connecting road, where the junction pairs only wrong lanes. The programs of the examples directory without signals and objects satisfy the conditions, so all this holds of their files (road_split_w_lane_split.py after its parenthesis is closed); the one of road_merge.py has such wrong lane links.", "quantifier": "every list of create_road (or PlanView, Lane, LaneSection, LaneLinker), add_predecessor, add_successor, create_junction (or Junction, Connection) calls that fit together, any number of roads, branches, lane sections, lanes, geometries and junctions", "why_tests_cant": "The tests compare the printed form of single elements; that geometry, road links, lane links and junction agree with each other must hold for every network and involves all modules at once.", "anchors": ["examples/road_split.py", "examples/road_merge.py", "examples/highway_example.py", "pyodrx/generators.py:create_road", "pyodrx/generators.py:create_junction", "pyodrx/opendrive.py:OpenDrive.adjust_roads_and_lanes", "pyodrx/opendrive.py:OpenDrive.get_element", "pyodrx/links.py:LaneLinker", "pyodrx/lane.py:LaneSection", "examples/lane_number_change_merge.py", "examples/two_roads.py", "examples/junction_trippel_twoway.py", "examples/multiple_geometries_one_road.py", "pyodrx/links.py:Junction.add_connection", "pyodrx/geometry.py:PlanView"]}
{"id": "C77", "title": "Lane links between the sections of a road", "statement": "In the document of a network program (C76) with roads of several lane sections, every link given to a LaneLinker is found in both directions: the first lane names the second as successor, the second names the first as predecessor. All lane links of the document - within roads, where a successor is a lane of the next section, and between roads - lead to a lane that exists and has the same inner and outer edge there, if and only if this holds, by the widths given to Lane, of the links given to the LaneLinker. The example programs lane_number_change_merge.py and road_split_w_lane_split.py (after its parenthesis is closed) satisfy this; in the file of road_merge_w_lane_merge.py two lane links are wrong (lane -2 is linked to lane -1, the ending lane -3 to lane -2) and lane -1 has no successor.", "quantifier": "every network program whose calls fit together, any number of roads, lane sections, lanes, width polynomials and links", "why_tests_cant": "Whether lane links, widths and section starts agree is a relation between many elements of the file and must hold for every road; the tests print single elements.", "anchors": ["pyodrx/links.py:LaneLinker", "pyodrx/lane.py:Lanes.add_lanesection", "pyodrx/lane.py:Lane", "examples/lane_number_change_merge.py", "examples/road_merge_w_lane_merge.py", "examples/road_split_w_lane_split.py"]}
{"id": "C78", "title": "Lane links between two connecting roads", "statement": "create_lane_links links the lanes of two connecting roads that touch inside a junction so that each lane names the number of the lane it runs into. The code violates this: only the road given first (in a network: the road added first) gets links. If it is the road in front, its lanes get the right successor numbers; if it is the road behind, its lanes get predecessor links with the wrong sign (left lanes name right lanes of the road in front). Joined end to end the road given first gets the right numbers, joined start to start the wrong sign. If the road in front has no predecessor link, either order raises AttributeError.", "quantifier": "every pair of connecting roads with one lane section each, linked to each other at one joint, any lanes", "why_tests_cant": "The branch is only reached when both roads lie in junctions, and the result depends on the argument order, the joint and all lane numbers; no test has such a pair", "anchors": ["pyodrx/links.py: create_lane_links, _create_links_connecting_road, _get_related_lanesection"]}
{"id": "C79", "title": "Signals and objects in whole programs", "statement": "A program may give signals and objects to its roads with add_signal and add_object before or after adjust_roads_and_lanes, and with add_object_roadside after it. Its document is the one of the program without these calls, except that every road shows exactly the signals and objects given to it, in the order of the calls, each with the attributes it was made with. The ids of all signals (and of all objects) are different; a given id is kept if it was free, otherwise the id is a number. Objects beside the road stand at the outer edge of the outermost lane plus tOffset, once per lane section and side, and are repeated up to the end of the road. add_object_roadside before the adjustment raises RoadsAndLanesNotAdjusted.", "quantifier": "every network program (C76) and junction program (C66), every list of calls for its roads, any ids, any earlier use of ids", "why_tests_cant": "The interplay of ids, copies, adjustment and emission has unboundedly many programs; the tests look at single signals and objects", "anchors": ["pyodrx/opendrive.py: Road.add_signal, Road.add_object, Road.add_object_roadside, Road.get_element", "pyodrx/signals_objects.py: _SignalObjectBase._update_id, Object.repeat", "examples/junction_with_signals.py", "examples/multiple_geometries_one_road_with_objects.py"]}
{"id": "C80", "title": "Roads added after the adjustment", "statement": "A user may expect that roads can be added to an adjusted network and adjusted in a second call. The code violates this: if adjust_startpoints returns normally, every road that was adjusted before is a road with a given start pose or (if there is none) the first road, and its geometries are appended once more, so that it is emitted with all of them twice. If the first step contained at least two roads, one of them without a given start pose, the second call raises UndefinedRoadNetwork, however the new roads are linked, even if all roads together can be placed in one call.", "quantifier": "every network, every set of adjusted roads, every list of new roads; all kinds of numbers for the first part", "why_tests_cant": "Quantifies over all networks and histories of calls; the tests adjust each network once", "anchors": ["pyodrx/opendrive.py: OpenDrive.adjust_startpoints, OpenDrive.add_road", "pyodrx/geometry.py: PlanView.adjust_geometries"]}
{"id": "C81", "title": "Roads that share lanes", "statement": "A user may expect that several roads can be given the same Lanes, LaneSection or Lane objects, since they look alike. The code stores lane links in the Lane objects, so that a shared lane collects the links of all roads that use it: adjust_roads_and_lanes gives it one successor link for each joint at the end of a normal road that uses it there, and one predecessor link for each joint at the start of a road that uses it there. If all roads have one Lanes object, every lane of every road is written with as many predecessors and as many successors as there are joints in the whole network, also the lanes of roads without predecessor or successor.", "quantifier": "every network with any sharing of lanes between normal roads, any number of roads, lanes, joints; all kinds of numbers", "why_tests_cant": "Quantifies over all networks and all ways of sharing objects; the tests give each road its own lanes", "anchors": ["pyodrx/links.py:create_lane_links", "pyodrx/links.py:_create_links_roads", "pyodrx/lane.py:Lane.add_link", "pyodrx/opendrive.py:OpenDrive.adjust_roads_and_lanes"]}
{"id": "C82", "title": "prettyprint and run_road show the file", "statement": "prettyprint(odr.get_element()) writes on the screen exactly the text that odr.write_xml writes to the file (followed by a line break), and raises an exception exactly if write_xml does. run_road (on a POSIX system) writes this text to pythonroad.xodr in resources/xodr of the esmini directory and starts the viewer in bin of this directory on exactly this file with the given density, if the path has only characters that are not special in the shell; if the document cannot be written nothing is started. Finding: the path is not quoted; if it contains a space the viewer is started on another file.", "quantifier": "every document, every esmini path, every density", "why_tests_cant": "Quantifies over all documents and paths; there are no tests of prettyprint and run_road", "anchors": ["pyodrx/helpers.py:prettyprint", "pyodrx/helpers.py:run_road", "pyodrx/helpers.py:printToFile", "pyodrx/opendrive.py:OpenDrive.write_xml"]}
{"id": "C83", "title": "Spirals in floating point arithmetic", "statement": "With rounded arithmetic (a Fresnel routine with a relative error of f units, as scipy documents) the geometry after a Spiral starts at the exact end of the clothoid that is written for the spiral, up to u times a stated number of units; the end of the planview is the exact end of its last spiral; planviews adjusted from their start or (as by adjust_roads_and_lanes) from their end, and the roads of an adjusted network, are tracks of lines, arcs and spirals from the road's start to its end up to rounding errors. The bound contains |k0| / |k1 - k0|: it is small for spirals that change their curvature and grows without limit for those that hardly do.", "quantifier": "every rounding arithmetic with small unit roundoff, every accuracy f of the Fresnel routine, all spirals, start poses, planviews and networks of such roads", "why_tests_cant": "tests compare a few spirals with a tolerance; a bound on the error must hold for every curvature, length and pose", "anchors": ["pyodrx/geometry.py:EulerSpiral.calc", "pyodrx/geometry.py:Spiral.get_end_data", "pyodrx/geometry.py:Spiral.get_start_data", "pyodrx/opendrive.py:PlanView.adjust_geometries", "pyodrx/opendrive.py:OpenDrive.adjust_startpoints"]}
{"id": "C84", "title": "ParamPoly3 in floating point arithmetic", "statement": "With rounded arithmetic (and an arctan2 accurate to a units) the geometry after a ParamPoly3 starts at the exact end of the parametric cubic that is written for it (parameter 1 for a normalized range, the written length otherwise), up to u times a stated number of units that is linear in the coordinates and in the absolute values of the terms of the polynomials, and, unless headings were given, in the direction of the exact tangent there, up to u times a number of units divided by the length of the tangent; the end of the planview is the exact end of its last polynomial curve in the same sense. Nothing is said about the direction of a curve without tangent at its end.", "quantifier": "every rounding arithmetic with small unit roundoff, every accuracy a of arctan2, all coefficients, ranges, start poses and sequences of geometries", "why_tests_cant": "tests compare a few curves; an error bound must hold for every coefficient, pose and sequence", "anchors": ["pyodrx/geometry.py:ParamPoly3.get_end_data", "pyodrx/opendrive.py:PlanView.adjust_geometries"]}
{"id": "C85", "title": "The bytes on the disk, and interrupted writes", "statement": "After write_xml the file with the given name holds bytes that an XML reader reads as the emitted element tree, and an OpenDRIVE reader as the described document, with and without pretty printing, with Unix and with Windows line breaks, and all other files are unchanged; if the document cannot be emitted no file is touched. When the program is stopped at any point while the file is written, the file on the disk either is rejected by every XML reader or holds the complete document: a truncated file is never taken for another document. Limits: an existing file is emptied first (no atomic replacement); with pretty printing the encoding of the platform is used without being declared, so that with Latin-1 a document with characters like ß is not read back (and is not readable if no two such characters are neighbours), and a character that the encoding lacks raises UnicodeEncodeError after the file has been emptied.", "quantifier": "all documents, values, file names, disks, platform encodings and line breaks, all points at which the writing can be interrupted", "why_tests_cant": "a test does not stop the program after every byte of every file, and runs on one platform", "anchors": ["pyodrx/helpers.py:printToFile", "pyodrx/opendrive.py:OpenDrive.write_xml"]}
{"id": "C86", "title": "The written file of a network, in floating point arithmetic", "statement": "After adjust_roads_and_lanes has returned normally, whoever reads the written file finds, up to rounding errors with explicit bounds: every road is one continuous line of its stated length starting at s = 0 (each geometry starts where the curve written before it, evaluated exactly from the written numbers, ends: lines, arcs, spirals and ParamPoly3), and every road is an anchor or is linked in the file to another road and meets it there with the declared lane offset, and so on up to an anchor. The file can be read if every road that is not an anchor has one geometry and every ParamPoly3 has a range of OpenDRIVE.", "quantifier": "all networks of roads without given headings (a road that is a single ParamPoly3 must be an anchor, arcs are curved), all numbers, all roundings with relative error u (doubles are an instance), plain and pretty printed files", "why_tests_cant": "rounding errors differ for every input; a test compares a few numbers with a guessed tolerance", "anchors": ["pyodrx/opendrive.py:OpenDrive.adjust_roads_and_lanes", "pyodrx/opendrive.py:OpenDrive.write_xml", "pyodrx/geometry.py:PlanView.adjust_geometries"]}
{"id": "C87", "title": "The order in which a program makes and connects its objects", "statement": "Two programs that consist of the same calls of the API, with the same order of the calls that touch the same object, leave the same objects, raise the same exceptions in the same calls and emit the same document for every OpenDrive. In particular add_road need not wait until the road is complete: it can be moved to any place after the road and the OpenDrive were made, and a Road can be made with a PlanView and Lanes that are filled in later.", "quantifier": "all programs of calls of the API (with objects shared in any way), all objects before them, all arithmetics; every exception is caught where it is raised", "why_tests_cant": "there are infinitely many programs and exponentially many orders of each; whether an attribute is a reference or a copy shows only in some orders", "anchors": ["pyodrx/opendrive.py:OpenDrive.add_road", "pyodrx/opendrive.py:Road.__init__", "pyodrx/lane.py:Lanes.add_lanesection", "pyodrx/links.py:Junction.add_connection"]}
{"id": "C88", "title": "From the calls of the API, in any order, to the written file", "statement": "A program that makes, fills, links and adds its objects in any order (variables are assigned before they are used, each road has its own PlanView with at least one geometry) and then calls adjust_roads_and_lanes, which returns normally, gets a file in which exactly the roads that were added appear, each nearly one line, and each an anchor or joined nearly, with the declared offset, to another road and so on up to an anchor. As long as no two roads share a PlanView, adjust_roads_and_lanes on objects does the same as on roads that contain their parts.", "quantifier": "all such programs, all orders of their calls, all exceptions caught on the way, all numbers, all roundings with relative error u (doubles are an instance)", "why_tests_cant": "the orders of the calls and the sharing of objects are infinitely many", "anchors": ["pyodrx/opendrive.py:OpenDrive.adjust_roads_and_lanes", "pyodrx/opendrive.py:OpenDrive.add_road", "pyodrx/opendrive.py:Road.__init__", "pyodrx/geometry.py:PlanView.add_geometry"]}
{"id": "C89", "title": "Lanes, lane sections and connections in programs of calls", "statement": "Whatever a program does in between, and wherever it calls adjust_roads_and_lanes (with or without an exception): a lane section has its centre and the lanes that were added to it, in this order; Lanes objects have the added sections, junctions the added connections with all their lane links. The number of a lane is the one of the last call that put it somewhere; if each lane is put into one place only, sections are numbered 1, 2, … and -1, -2, …, and a lane used only as a centre is 0 in all its sections. A connection without a given id gets its place in the first junction it is added to. Every OpenDrive of the program can be emitted: get_element raises nothing.", "quantifier": "all programs of calls in which variables are assigned once, before their use (objects may be shared), all states before, all arithmetics", "why_tests_cant": "histories are unbounded and objects can be shared in any way", "anchors": ["pyodrx/lane.py:LaneSection.add_left_lane", "pyodrx/lane.py:LaneSection.add_right_lane", "pyodrx/links.py:Junction.add_connection", "pyodrx/links.py:Connection._set_id", "pyodrx/opendrive.py:OpenDrive.get_element"]}
{"id": "C90", "title": "Ids of roads, signals and objects in the document of a program of calls", "statement": "Whatever a program does in between: a road has the signals and objects that were added to it, in this order. Two different objects (signals) that were added to roads, of whatever OpenDrive and made with whatever ids, have different ids. In the document of an OpenDrive all roads have different ids; all objects, over all roads, have different ids if no object was added twice; and so for signals.", "quantifier": "all programs of calls in which variables are assigned once, before their use, all states before, all arithmetics", "why_tests_cant": "histories are unbounded; the ids are kept in class attributes that all roads and documents share", "anchors": ["pyodrx/opendrive.py:Road.add_object", "pyodrx/opendrive.py:Road.add_signal", "pyodrx/opendrive.py:OpenDrive.add_road", "pyodrx/signals_objects.py:_SignalObjectBase._update_id"]}
{"id": "C91", "title": "Roads and their links in the document of a program of calls", "statement": "Whatever a program does in between, and in whatever order roads are made, connected and added: a road has the id, type, name and rule it was made with; its predecessor is the first one declared, with that call's lane offset, and so its successor; its links are these and the first two neighbors with a direction, in the order of the calls. A second predecessor or successor, a third neighbor, or a neighbor without direction raises ValueError, other such calls raise nothing. Whoever reads the document of an OpenDrive finds its name, the added junctions and the added roads in the order in which their ids were first added; under each id the road that was added last.", "quantifier": "all programs of calls in which variables are assigned once, before their use, all states before, all arithmetics", "why_tests_cant": "histories are unbounded", "anchors": ["pyodrx/opendrive.py:Road.add_successor", "pyodrx/opendrive.py:Road.add_predecessor", "pyodrx/opendrive.py:Road.add_neighbor", "pyodrx/opendrive.py:OpenDrive.add_road", "pyodrx/opendrive.py:OpenDrive.add_junction", "pyodrx/opendrive.py:OpenDrive.get_element"]}
{"id": "C92", "title": "When adjust_roads_and_lanes returns, in terms of the calls of a program", "statement": "A program makes its roads, lanes and links in any order: different ids, links to added roads with contact points, connecting roads between normal roads with lanes for all of theirs, equal numbers of lanes where roads follow each other, no lane in two places, usable geometries. Then adjust_roads_and_lanes returns normally exactly if every added road is reached by declared links from a road with a start pose (or, if there is none, from the first added road); otherwise it raises UndefinedRoadNetwork, never anything else.", "quantifier": "all programs of calls in which variables are assigned once, before their use, with the stated conditions on the calls; all numbers of roads and lanes; any rounded arithmetic", "why_tests_cant": "programs and networks are unbounded", "anchors": ["pyodrx/opendrive.py:OpenDrive.adjust_roads_and_lanes", "pyodrx/opendrive.py:OpenDrive.adjust_startpoints", "pyodrx/opendrive.py:OpenDrive.add_road", "pyodrx/links.py:create_lane_links"]}
{"id": "C93", "title": "What lanes, planviews, geometries, objects and signals contain after a program of calls", "statement": "Whatever else a program does, in whatever order: a lane has the type and the width it was made with and the road mark added last (also after adjust_roads_and_lanes), and, without LaneLinker objects and adjust_roads_and_lanes, exactly the links added to it; before adjust_roads_and_lanes, a planview has the geometries and headings added to it in the order of the calls and starts where set_start_point last put it, else at the pose it was made with, else at the origin, and is an anchor exactly if it was made with a pose, and a geometry is as it was made; an object or a signal is as it was made except for its id, and an object has the repetitions of the repeat calls in their order.", "quantifier": "all programs of calls in which variables are assigned once, before their use; any arithmetic", "why_tests_cant": "the programs are unbounded and the calls may be interleaved in any way", "anchors": ["pyodrx/lane.py:Lane", "pyodrx/geometry.py:PlanView", "pyodrx/signals_objects.py:Object.repeat", "pyodrx/opendrive.py:Road.add_object"]}
{"id": "C94", "title": "The road generators are the calls they abbreviate", "statement": "A program that makes a road by hand with the constructors and add calls, in whatever order, with the lanes, widths and road marks that create_road, create_straight_road or create_cloth_arc_cloth document, gets before adjust_roads_and_lanes a road equal to the one the generator returns: all attributes of the road, its planview, its geometries, its lane section and its lanes are equal one by one.", "quantifier": "all programs of calls in which variables are assigned once, before their use; all numbers of lanes and geometries, all widths, marks, ids; any arithmetic", "why_tests_cant": "the programs and the numbers of lanes are unbounded", "anchors": ["pyodrx/generators.py:create_road", "pyodrx/generators.py:create_straight_road", "pyodrx/generators.py:create_cloth_arc_cloth"]}
{"id": "C95", "title": "Lane links after adjust_roads_and_lanes, in terms of the calls of a program", "statement": "A program makes its roads in any order so that adjust_roads_and_lanes returns (C92), with lanes of their own for every road. Then the i-th lane on each side of the last section of a normal road whose successor declares it as predecessor gets exactly one successor link, to the number of the i-th lane on that side of the successor, and that lane exactly one predecessor link back; the i-th lane of a connecting road at an end linked to a road gets exactly one link, to the i-th lane of that road on that side with the sign of the direction, shifted by the declared lane offset; no other lane gets links, all lanes keep the links they had, and nothing else about a lane changes.", "quantifier": "all programs of calls in which variables are assigned once, before their use, with the stated conditions on the calls; all numbers of roads and lanes; any rounded arithmetic", "why_tests_cant": "programs, networks and numbers of lanes are unbounded", "anchors": ["pyodrx/opendrive.py:OpenDrive.adjust_roads_and_lanes", "pyodrx/links.py:create_lane_links", "pyodrx/lane.py:LaneSection.add_left_lane", "pyodrx/lane.py:Lanes.add_lanesection"]}
{"id": "C96", "title": "Joints of roads after adjust_roads_and_lanes, in terms of the calls of a program", "statement": "A program makes its roads in any order so that adjust_roads_and_lanes returns (C92), with lanes of their own for every road, and the joints it declares with add_predecessor and add_successor contain no loop. Then at every declared joint the start or end points that get_start_point() and get_end_point() of the two PlanViews return agree: they are the same point if no lane offset is given, else the point shifted sideways by 3 per lane; the outgoing directions are opposite; and the cross sections of the two roads coincide, so that lane borders continue (all up to rounding errors with an explicit bound).", "quantifier": "all programs of calls in which variables are assigned once, before their use, with the stated conditions on the calls; all numbers of roads; all geometries; any rounded arithmetic (doubles)", "why_tests_cant": "programs and networks are unbounded, and rounding errors depend on the values", "anchors": ["pyodrx/opendrive.py:OpenDrive.adjust_roads_and_lanes", "pyodrx/opendrive.py:OpenDrive.adjust_startpoints", "pyodrx/opendrive.py:OpenDrive._adjust_road_wrt_neighbour", "pyodrx/opendrive.py:Road.add_predecessor", "pyodrx/opendrive.py:Road.add_successor", "pyodrx/geometry.py:PlanView.get_start_point", "pyodrx/geometry.py:PlanView.get_end_point"]}
{"id": "C97", "title": "The document of a program of calls, in terms of its calls", "statement": "A program of calls in any order adds roads with different ids to an OpenDrive and puts every lane into one place. Then what is read of the document (get_element) is what the calls say: the roads are those added, each once, in the order of the first additions, with the attributes and the links given (at most one predecessor, one successor, two neighbors), the lane sections, signals and objects in the order of the calls; the lanes on each side of a section in the order of the calls, numbered 1, 2, ... on the left and -1, -2, ... on the right, with type, width and last road mark as made; junctions, connections and lane links of connections as made and added. If the program also meets the conditions of C92, then after adjust_roads_and_lanes the document shows, besides that: one link to the lane of the same number for every lane at a joint of consecutive roads, one link to the right lane for every lane at a linked end of a connecting road, no other lane links; the geometries of every road are those that were made and added to its PlanView, with their parameters, in the order of the calls; and at every declared joint the ends of the two roads computed from the geometries in the document meet, up to rounding errors. The same is read of the file that write_xml writes.", "quantifier": "all programs of calls in which variables are assigned once, before their use, with the stated conditions on the calls; all numbers of roads, lanes, signals, objects and junctions; any rounded arithmetic (doubles)", "why_tests_cant": "programs and documents are unbounded", "anchors": ["pyodrx/opendrive.py:OpenDrive.get_element", "pyodrx/opendrive.py:OpenDrive.adjust_roads_and_lanes", "pyodrx/opendrive.py:OpenDrive.write_xml", "pyodrx/opendrive.py:Road.get_element", "pyodrx/lane.py:Lanes.get_element", "pyodrx/lane.py:LaneSection.get_element", "pyodrx/lane.py:Lane.get_element", "pyodrx/links.py:Junction.get_element", "pyodrx/links.py:Connection.get_element"]}
{"id": "C98", "title": "Linked lanes of a program of calls touch", "statement": "A program of calls in any order draws a network without loops to which adjust_roads_and_lanes applies (C92), links no lanes itself and gives no lane offsets, and makes lanes that are to be linked with the same widths. Then in the document every link of every lane, of every road, leads to a lane that physically continues it: at the linked end of another road of the document there is a lane with the number in the link, and the two lanes have the same outer and the same inner edge there, computed from the geometries and lane widths in the document, up to rounding errors of the directions. Every lane at the common end of consecutive roads, and every lane at a linked end of a connecting road, has exactly one such link. With a lane offset n at the end of a connecting road that was placed by it, the same holds for the lane n further left if all lanes are 3 wide (the width is hard-coded), an end meets a start, that lane exists and the reference line is not crossed. For lanes d wide the linked lanes do not touch: their edges are (3 - d) * n apart (finding).", "quantifier": "all programs of calls in which variables are assigned once, before their use, with the stated conditions on the calls; all numbers of roads, sections and lanes, all width polynomials (equal at the ends), both contact points; any rounded arithmetic (doubles)", "why_tests_cant": "lane numbers and positions are computed by different code from the same calls, in floating point arithmetic; programs and networks are unbounded", "anchors": ["pyodrx/opendrive.py:OpenDrive.adjust_roads_and_lanes", "pyodrx/links.py:create_lane_links", "pyodrx/opendrive.py:OpenDrive._adjust_road_wrt_neighbour", "pyodrx/opendrive.py:OpenDrive.get_element", "pyodrx/lane.py:Lane.get_element", "pyodrx/lane.py:LaneSection.get_element"]}
{"id": "C99", "title": "add_object_roadside in a program of calls", "statement": "add_object_roadside as one more call of a program in any order. If the planview of the road is adjusted, it equals the calls by which one would put the objects beside the road by hand: for every lane section in order, and every side wanted, a new object equal to the given one (as made and as repeated so far) but moved outside of the lanes of that side (the sum of their widths at the start of the section plus tOffset, on that side), to sOffset after the start of the section, turned towards the road, repeated up to the end of the road, then added to the road in one call; nothing else changes. Otherwise it raises RoadsAndLanesNotAdjusted and changes nothing; it does so before adjust_roads_and_lanes and succeeds after it, for every road of the network. The document made afterwards is readable if the one before was; it is what the calls say (C97), and the road has, after the objects added to it before, exactly these, in this order; the ids of all objects of all roads of the document are different (if no object was added twice before). With more than one lane section, the objects of every section are repeated up to the end of the road, not of the section.", "quantifier": "all programs of calls in which variables are assigned once, before their use; every road, prototype object, side, offsets and distance; all numbers of lane sections and lanes; any rounded arithmetic (doubles) for the document after adjust_roads_and_lanes, any arithmetic for the rest", "why_tests_cant": "the effect depends on everything that was called before: lane sections, widths, objects and ids so far, and whether the geometry was adjusted; programs are unbounded", "anchors": ["pyodrx/opendrive.py:Road.add_object_roadside", "pyodrx/opendrive.py:Road.add_object", "pyodrx/signals_objects.py:Object.repeat", "pyodrx/opendrive.py:OpenDrive.adjust_roads_and_lanes"]}
{"id": "C100", "title": "The file of a program of calls, in terms of the texts in its calls", "statement": "Every text in a document comes from a call (names, ids, types, ranges of ParamPoly3, countries, …), is the text of an integer or None, or is the text of the clock; whatever calls were made in whatever order, with add_object_roadside and adjust_geometries between them, and whatever exceptions were caught. So if the texts given in the calls have only characters that XML allows, write_xml never fails to write the file, plain or pretty printed, and a reader that knows XML and nothing of pyodrx reads from it exactly what is in the element that get_element returns (pretty printed: if the texts have no line breaks and tabs either). If on the other hand one of the texts that is certainly in the document (its name; name, rule, id and first predecessor and successor of the roads that no later road replaces, texts of their objects and signals, units of signals with a value; names and ids of junctions, ids in their connections) has a character that XML does not allow, the pretty printed file is not written (ExpatError), and the other one is not XML. For a laid out program after adjust_roads_and_lanes, this is the document that the calls describe. What C97 and C99 ask of the state (road marks and signals that can be shown) follows from how the calls made them.", "quantifier": "all sequences of calls, of any length; all texts in them; every OpenDrive of the program; plain and pretty printed files; every way to print numbers that can be read back; any rounded arithmetic (doubles) for the laid out programs, any arithmetic for the rest", "why_tests_cant": "whether a file can be written and read depends on every text that any call has left in any object, through ids that are renumbered, lane links that are computed, and copies of objects; tests look at single texts in single places", "anchors": ["pyodrx/opendrive.py:OpenDrive.write_xml", "pyodrx/opendrive.py:OpenDrive.get_element", "pyodrx/signals_objects.py:_SignalObjectBase._update_id", "pyodrx/links.py:create_lane_links", "pyodrx/geometry.py:PlanView.adjust_geometries", "pyodrx/helpers.py:printToFile"]}
{"id": "C101", "title": "Programs that have nothing to do with each other", "statement": "Two programs make their own objects and use only these, and at most one of them adds objects or signals to roads. However their calls are interleaved in one process, or if one runs before the other, every OpenDrive emits the document, or raises the exception, that it emits if its program runs alone, and every call raises exactly what it raises if its program runs alone. In particular adjust_roads_and_lanes of one document never changes another document, even if the road ids are the same. What a program does does not depend on what was made in the process before it, except for the ids in use, and for these only if it adds objects or signals to roads; so a script that adds none, run again in the same process, raises the same exceptions and makes the same documents. All this is also so if the programs call planview.adjust_geometries themselves. The restriction is needed: the ids of objects and signals in use are kept for the whole process, so of two independent programs that add an object to a road the second one can get other ids in its document than if it runs alone.", "quantifier": "all pairs of sequences of calls, of any length; all interleavings of their calls; all states of the process before them; all arithmetics; every OpenDrive of the programs", "why_tests_cant": "which objects a call changes depends on all references between objects that the calls before it have made; tests run one program in one order, mostly in a fresh process", "anchors": ["pyodrx/opendrive.py:OpenDrive.adjust_roads_and_lanes", "pyodrx/opendrive.py:OpenDrive.get_element", "pyodrx/signals_objects.py:_SignalObjectBase._update_id", "pyodrx/links.py:create_lane_links", "pyodrx/geometry.py:PlanView.adjust_geometries"]}
