# Formal model of pyoscx/pyodrx in Lean 4: design

Source: `/repo` (pyodrx, pinned commit), read as text; nothing was executed.
Lean project: `/verif/lean` (`lake build`). Properties: `/verif/properties.jsonl`, status per
property: `/verif/MANIFEST.json`, log of the attempts to break the theorems with wrong programs:
`/verif/seeded/LOG.jsonl`.

## 1. How the code is modelled

* One Lean function per Python function, branch by branch, with the file and lines in the comment.
* **Numbers.** Every Python/numpy float is an element of an arbitrary type `F` with a class
  `PyFloat F` (operations `+ - * / neg abs sin cos sqrt sign arctan2 max pi fresnel quad`, the tests
  `x == 0` and `x < y`). Theorems about structure, control flow, histories, ids, XML are proved for
  *every* `F` (therefore also for IEEE doubles: no law of arithmetic is used). Theorems about
  geometry instantiate `F := ℝ` with the mathematically exact operations (`fresnel` = the Fresnel
  integrals, `quad` = the integral, `arctan2` = argument of a complex number). C67-C70, C83 and C84 instantiate `F := Fl R`: real numbers rounded after each operation by any
  rounding `R` with the properties of IEEE 754 (`Verif/Rounding.lean`), among them doubles.
* **Ids** are `PyId` = Python `int` or `str`, because the code compares ids with `==` in some places
  and through `str()` in others.
* **Exceptions** are values (`PyErr`). A function that mutates state and may raise is
  `EStateM PyErr σ α`: the state *at the moment of the raise* is kept in the result, so partial
  effects before an exception are visible.
* **Objects and aliasing.** Geometries, lanes, signals and objects live in stores (`Store α`: a heap
  of cells addressed by references) because pyodrx mutates them through shared references (one `Arc`
  in two planviews, one centre lane in three sections, `LaneLinker`). PlanView, Lanes, LaneSection, and Road
  objects are values owned by their container; in `Model/Shared.lean` PlanViews are objects too, in `Model/Session.lean` every object is one,
  and C73 shows that this makes no difference as long as each road has its own.
* **dict** = association list in insertion order. `while`/`for` = structural or well-founded recursion.
* **XML** = trees with attribute values kept *before* `str()` (`Val`: number, int, text, None).
* `print` has no effect.

## 2. Trusted base

* Lean's kernel (Lean 4.33.0) and the definitions of Mathlib used in statements (real numbers, complex
  argument, interval integral).
* Axioms: only `propext`, `Classical.choice` and `Quot.sound`, the three of Lean's library. None is added,
  `native_decide`/`bv_decide` are not used. `AXIOMS.md` (made by `tools/axioms.py` from `#print axioms`)
  lists, for each theorem of the manifest, which of the three it depends on.
* That the model says what the Python says. Each definition cites the lines it models and names its
  simplifications. The theorems do not protect against a misreading of Python that is made the same way in
  model and specification; the specifications (`Verif/Spec`) are therefore written from the
  OpenDRIVE meaning (integrals of unit tangents, connected poses, elements and attributes by name) and not from
  the code.

### Modelled
`geometry.py`, `links.py`, `lane.py`, `opendrive.py`, `signals_objects.py`, `generators.py`, `enumerations.py` and
`helpers.py`: every class and function, with the exceptions below. Of the standard
library: the writers of `xml.etree.ElementTree` and `xml.dom.minidom` (Python 3.11) for trees without text, in
`Model/Write.lean`, the bytes and the disk in `Model/File.lean`; in place of expat a reader for XML 1.0 without character data, `XmlParser.lean`. Of
`examples/`: `full_junction.py`, and programs of the kind of `road_split.py`, `road_merge.py`, `highway_example.py`,
`lane_number_change_merge.py` and `road_merge_w_lane_merge.py` (`Model/Program.lean`), `junction_with_signals.py` and
`multiple_geometries_one_road_with_objects.py` (`Model/Furnish.lean`).

### Not modelled
* Overflow, underflow, NaN, infinities (a division by zero that numpy would turn into inf is reported as the
  model error `nonFinite`). Results stated over ℝ hold of the code up to floating point error, which is bounded for planviews of lines,
  arcs, spirals, polynomial curves (forward only) and the joints of networks (C67-C70, C83, C84) and not elsewhere; C83 assumes a relative accuracy of `fresnel`, C84 an accuracy of `arctan2`; `np.sin`, `np.cos` are assumed accurate to two units there. Results stated
  for every `F` hold of doubles as well.
* The text of exception messages, `print`, the current date (the header takes it as an argument).
* The Windows branch of `helpers.run_road`, what the viewer does.
* File system errors (missing directory, full disk) and writes that reach the disk out of order; the encoding of the platform is a parameter (`Platform`, Model/File.lean);
  lone surrogates in strings; XML names outside ASCII (pyodrx uses none); how a float is printed (`show'` in C63 is
  any function, the result must be legal in XML; in C64 a reader of numbers must read it back).
* The `RoadType` class (a plain class without behaviour that nothing uses), `docs`, `html`, the other `examples`, `tests`.
* Type errors caused by values of undocumented types; user code that assigns to attributes directly.
* One PlanView shared by two roads (except in `Model/Shared.lean` and `Model/Session.lean`); except in `Model/Session.lean`, a Lanes, LaneSection or Road object that is changed
  through one owner after it was given to another (geometries, lanes, signals and objects may be shared). The module constants `STD_ROADMARK_*` are values: no function mutates a road mark after its
  construction.
* `RoadLine.color` is stored by the code (and in the model) but never emitted.

## 3. Modules

* `Verif/Py.lean` Python runtime (errors, numbers, ids, indexing, dict, store); `Verif/PyReal.lean` real instance;
  `Verif/Rounding.lean` floating point instance.
* `Verif/Xml.lean`, `Verif/XmlParser.lean`, `Verif/Enums.lean`.
* `Verif/Model/*.lean` the model (Geometry, PlanView, Links, Lane, SignalsObjects, Road, OpenDrive, Shared, Session, Generators, Write, Helpers, and Examples, Program, Furnish for programs of `examples/`).
* `Verif/Spec/*.lean` the small independent specifications used in statements.
* `Verif/Proofs/*.lean` helper lemmas. `Verif/Props/*.lean` the property theorems and their non-vacuity examples.
* `Verif/Conformance*.lean` tests of `/repo/tests` evaluated on the model: a check of the model against the project's own
  expectations, no claim rests on it.

## 4. Plan per property

| Prop | What is modelled | How it is proved |
|---|---|---|
| C01 | `Line` | direct, trigonometry over ℝ |
| C02 C04 | `Arc` with its mutable length/angle | closed form against the interval integral of the unit tangent; FTC |
| C03 | `Arc` as a state machine over call histories | invariant "length fixed, angle = ± length*curvature", induction over the call list; witness for the mismatching sign |
| C05 C06 | `Spiral`, `EulerSpiral.calc` with complex arithmetic and Fresnel integrals | completing the square and change of variables; reversal by s ↦ L-s |
| C07 | `Spiral.__init__` | case analysis |
| C08 C09 | `ParamPoly3` | rotation algebra; C09 is false of the code: exact characterisation + witness |
| C10 | `PlanView.__init__` | case analysis |
| C11 C13 C14 C15 C16 | `PlanView.adjust_geometries` forward | induction over the geometry list with the heap threaded |
| C12 C13 | `adjust_geometries(True)` | induction over the reversed list, inverse lemmas C01/C04/C06; C13 false in general: witness |
| C17 | the while loop of `adjust_startpoints` | well-founded measure; no infinite chain of passes |
| C18-C23 | `adjust_startpoints`, `adjust_road_wrt_neighbour` | invariants over visits; inductive `Placed`; closure argument for C20; C23 witness |
| C24 C34 | road links | invariant over op lists |
| C25-C30 | `create_lane_links` and helpers on the lane heap | loop invariants over lane lists, frame lemmas, induction over all pairs |
| C31 C32 | `add_lanesection`, `LaneSection` | induction over histories |
| C33 | `Junction` | induction over histories, witness for collisions |
| C35-C37 | `_update_id` with the class-level registry | invariant over histories; pigeonhole for termination |
| C38 | `add_object_roadside` | induction over sections |
| C39-C41 | constructors | exhaustive case analysis over optional arguments, all values |
| C42 C43 | `get_element` functions | structural |
| C44 | enumerations, `enum2str` | whole finite tables; injectivity for all strings |
| C45-C50 | generators | induction over lane numbers / road lists |
| C51 C52 | `add_geometry` with headings | induction over the geometry list with the list of forced headings indexed |
| C53 | `create_lane_links` on head-to-head joints and loops | frame invariant: no lane changes |
| C54 | `_Geometry.get_element`, `PlanView.get_element` | an independent reader (`Spec/Read.lean`) and an independent meaning of the curve elements (`Spec/ReadCurve.lean`); induction over the list, evaluation never changes what is emitted (arc length excepted, which is not emitted by `<arc>`) |
| C55-C58 | `get_element` of links, junctions, lanes, marks, signals, objects | reader after writer equals the user's input, induction over lists, all combinations of optional attributes |
| C59 | `Road.get_element`, `OpenDrive.get_element` | composition of C54-C58 |
| C60 | `Arc.__init__`, `ParamPoly3.__init__` | case analysis; C11 for the plan view part |
| C61 | the program of `examples/full_junction.py` (`Model/Examples.lean`) | symbolic trace of `adjust_startpoints` for any number of roads (`Proofs/Trace.lean`), C30, C49, C50 |
| C62 | the same | connecting roads are symmetric (`Proofs/Turn.lean`), closed form of the tangent, estimates of the clothoid (`Proofs/TurnBound.lean`) |
| C63 | `write_xml`, `printToFile`, the XML writers of the standard library, an XML reader | run lemmas for the reader automaton, induction over the tree; all attribute names pyodrx emits are XML names and distinct |
| C64 | the same, read by `Spec/ReadFile.lean`: text to tree, attributes to numbers, integers and texts by their OpenDRIVE kind, tree to document | every emitted attribute has a value of its kind (`Proofs/ReadFile.lean`); the readers of C54-C58 do not see the difference; C59, C63 |
| C65 | `adjust_roads_and_lanes`, `get_element`, `write_xml` composed, seen by the reader of C64 (`Spec/ReadNetwork.lean`) | every road is placed exactly once on fresh geometries (`Proofs/ReadNetwork.lean`), C19, C54, C59, C64 |
| C66 | `junctionProgram` (C61) followed by `get_element`, `write_xml`, seen by the reader of C64 (`Spec/ReadJunction.lean`) | C61, C62, C30, C50 for what was built and placed, C59, C63, C64 for what is read; the texts of the document are those of the given roads or plain |
| C67 C68 | `adjust_geometries(False)` over `Fl R` (`Verif/Rounding.lean`), seen by an exact reader of the emitted numbers (`Spec/Float.lean`) | the two evaluations of each geometry in the loop, for every `F`; error propagation through `Line`/`Arc` (`Proofs/Float.lean`, `Proofs/FloatPlanView.lean`) |
| C69 | `adjust_startpoints` over `Fl R` | the dichotomy of C20 for every `F` and every condition under which planviews can be adjusted (`Proofs/NetworkTotal.lean`); the placements of a run (as C19) with the errors of one placement; geometry objects keep their curvature during the run (`Proofs/FloatTrack.lean`) |
| C70 | `adjust_geometries(True)` over `Fl R` | as C67, C68, with the turned heading and negated curvature (`Proofs/FloatBackward.lean`) |
| C71 | as C19, C65, C69, on loop-free link graphs (`Spec/NoLoops.lean`) | each road is placed through one joint and no joint places two roads (distance to an anchor decreases); with no more joints than roads, counting shows every joint is used (`Proofs/NoLoops.lean`) |
| C72 | two runs of `adjust_startpoints` and `adjust_roads_and_lanes` on permuted road dictionaries (`Spec/Order.lean`) | adjusting a planview reads and writes its own geometries only; by C71's counting a road has one possible neighbour to be placed at, so by induction on the distance to an anchor its result is a function of the network, not of the order (`Proofs/Order.lean`) |
| C73 | `adjust_startpoints` on a state in which PlanViews are objects that roads refer to (`Model/Shared.lean`) | simulation with the model in which roads contain their planviews, step by step; for shared objects: each road counted closes another PlanView object, and there are fewer objects than roads (`Proofs/Shared.lean`) |
| C74 | the document of C59, C65 with lane links (C30) and placed roads (C71); `Spec/Touch.lean` computes the edges of lanes from the widths a reader finds | C71 gives the relative pose of linked ends, C30 the linked numbers; the distance of the n-th edge is a sum over lanes, by induction on the number of the lane (`Proofs/Touch.lean`) |
| C75 | `Net.adjustStartpoints` and the document of C59; `Spec/Tree.lean` states what it means that the declared joints form a tree | every history of placements (Proofs/Order.lean) only uses declared joints; induction on the tree from the anchor outwards shows that each road is placed by its own entry (`Proofs/Tree.lean`); poses by C71, reading by C54/C59 |
| C76 | the whole program (`networkProgram`, Model/Program.lean: create_road, or PlanView with or without a given start and hand-drawn lane sections with a LaneLinker; add_predecessor/successor; create_junction, or Junction and Connection by hand; add_road, adjust_roads_and_lanes) and the document of C59; `Spec/Program.lean` states when the calls fit together and what a reader has to find | `Proofs/Program.lean`, `Proofs/ProgramLanes.lean`: the roads after the constructors and their links; placement by C75, lanes and links by C74, reading by C59/C75, junction by C66; for the programs of the examples directory (without signals and objects) the conditions are checked (`Props/ProgramExamples.lean`, `LaneSectionExamples.lean`, `UnlinkedExamples.lean`, `DrawnJunctionExamples.lean`) |
| C77 | as C76; `Spec/LaneSections.lean` computes the edges of ordered lanes and of lanes of the document at the boundary of two sections | the edges are sums over lanes, by induction on the lanes of a side; the links of every lane are known from C76 (`Shows.onlyLanes`) |
| C78 | `create_lane_links` for two roads whose type is not -1 (`FollowsInside` and explicit link hypotheses in the statements) | the two calls of `_get_related_lanesection` are evaluated, the loops by the log lemma of C28 |
| C79 | programs of C76 and C66 with calls that give signals and objects to roads (`Model/Furnish.lean`); `Spec/Furnish.lean` states what the document has to show | nothing in the adjustment and the junction code looks at signals and objects (`Proofs/Dress.lean`: all functions commute with changing them); the calls are followed by a log of the references each road gets (`Proofs/Furnish.lean`); emission and reading by C59 (`Proofs/FurnishDoc.lean`) |
| C80 | `Net.adjustStartpoints` on networks in which some roads are adjusted already | the counter of the code equals the number of adjusted roads only if no road was adjusted before and not counted; histories as in C18; the exception by the totality proof of C20 started from a later state |
| C81 | as C30 and C59, with lane references that occur in several roads | C30 gives the links of every lane as a list over all pairs of roads; each pair contributes one link or none |
| C82 | `prettyprint`, `run_road`, `posixpath.join` (Model/Helpers.lean) | the serialised text contains no raw line breaks and tabs, so that removing them (as printToFile does) changes nothing; the command is split into words |
| C83 | `EulerSpiral.calc` (all three branches), `Spiral.get_end_data`, `get_start_data`, planview adjustment and networks over rounded arithmetic (`Rounding.lean`) | forward error analysis: square roots, Fresnel arguments, phase, complex product (Proofs/FloatSpiral.lean); Fresnel integrals are 1-Lipschitz, A/q = 1/abs gamma; driving back along a clothoid for the backward direction |
| C84 | `ParamPoly3.get_end_data`, planview adjustment from the start, over rounded arithmetic | forward error analysis of the two cubics (sums of absolute values of the terms), of the rotation and of the slope; the error of `arctan2` from the error of its arguments via the norm of the quotient of two complex numbers on the unit circle; then the trace of `adjust_geometries` as for C67 |
| C85 | `write_xml` and `printToFile` down to the bytes, with every state of the disk on the way (`Model/File.lean`); platform encoding and line break as parameters; reader = UTF-8 decoding (Lean's `utf8Decode?`), then the XML reader of C63 | the reader automaton completes the root element only with the last `>`: an invariant on the completed elements (they only grow) shows that no proper prefix is accepted; prefixes of bytes are prefixes of characters or do not decode; Latin-1 by comparing bytes |
| C86 | the placed network in floating point arithmetic (C69), emitted (C59) and read back from the file (C65) | every road was evaluated once, from its start or its end, with objects of unchanged curvatures and coefficients (`startpoints_onceK`); the geometries that are read are those evaluations (`read_chained`), so the bounds of C69, C83, C84 hold for the numbers in the file (`Spec/FloatFile.lean`) |
| C87 | programs in which every object is a reference in a store (`Model/Session.lean`) | a call changes only what it touches and what it does depends only on that (`step_frame`, `step_local`), so calls that touch nothing in common commute (`step_comm`); two lists with the same order per object differ by such swaps (`runCalls_order`) |
| C88 | the programs of C87 | an invariant over the calls (`Inv`): every PlanView is what its constructor and its add_geometry calls make, roads keep ids and links, the dict has the ids of the added roads; then the simulation of C73 with lane linking (`adjust_values`) and C86 |
| C89 | the programs of C87 | invariants over the calls (`Num`, `Con`); `adjust_roads_and_lanes` changes only planviews, geometries and links of lanes (`adjust_frame`) |
| C90 | the programs of C87 and the reader of C59 | an invariant over the calls (`IdsInv`) with the fold lemmas of C36/C37; counting in the lists of added objects |
| C91 | the programs of C87 and the reader of C59 | invariants over the calls (`RoadIs`, `OdrIs`), a rule for such invariants (`invariant_program`) |
| C92 | the programs of C87 | translation of calls to networks (`program_linked`, `program_linkable`, `reached_iff`), then C69 and C30 |
| C93 | the programs of C87 | one rule for an object and the calls that touch it (`content_program`) |
| C94 | the programs of C87 | C93, C89 and C90 give the objects of the hand-made road; the closed forms of the generators the other |
| C95 | the programs of C87 | counting the calls that put a lane (`puts_count`) gives Unshared, C92 the run, then C30 |
| C96 | the programs of C87 | the declared joints of the network are those of the calls, so that C71 applies; the objects after the call are those of the by-value model (C88) |
| C97 | the programs of C87 | the objects after the program by calls (C89, C90, C91, C93), what is read of a document (C59), the lane links of C95, the joints of C96 with C86 |
| C98 | the programs of C87 | the document (C97), its lane links (C95), the joints (C96, C86); edges of lanes as in C74 |
| C99 | the session state of C87 | equality with the calls by hand, by induction over sections and sides; then C97 and C90 for the longer program |
| C100 | the session state of C87 with `adjust_geometries` | an invariant of all texts in all objects over every call, also when it raises; then C63, C64, C89, C97, C99; C100_refused: the texts that are certainly written, traced from the calls |
| C101 | the session state of C87; every call is a function of the objects that it reaches | the calls of a program keep the objects of it closed under references; a judgment that a computation on the two states does the same on these objects and leaves all others, for every call, the adjustment of planviews and the lane links; induction over the interleaving |

No property had to be declared inexpressible; the parts that live in the runtime are listed in section 2.

## 5. Findings: where the code does not do what a user expects

Proved of the model as theorems (the property text states the violation):

* C03/C04: an arc given by an angle whose sign differs from its curvature, or evaluated from its end before ever
  being evaluated from its start, gives results that depend on the history of calls.
* C09: `ParamPoly3.get_start_data` is not the inverse of `get_end_data`, even for a straight line.
* C13/C54: adjusting from the end leaves all s values but one `None`; the emitted XML is unreadable.
* C16: `Road.get_end_point` is wrong for roads adjusted from the end.
* C23: junction ids are looked up among the roads: a road linked to a junction whose id is not also the id of a
  road raises `KeyError`.
* C25: two roads in a ring, or a junction whose id equals a road id, are linked wrongly.
* C27: two connecting roads of which only the second names the first get lane links of the type `None`; they are not
  written.
* C26/C28/C29: comparisons use the wrong lane section for several sections; exceptions leave half the links.
* C33: explicit connection ids can collide with generated ones.
* C47: a `cloth_angle` of 0 is accepted and makes the road unadjustable.
* C48: for roads with several lane sections, `create_junction_roads` takes the lanes from the end away from the
  junction.
* C49: `create_junction_roads` on roads with different lane numbers raises `NameError` instead of the documented
  exception (the class is not imported).
* C50: with a lane offset at its end, the junction names lanes of the connecting road that do not exist.
* C52: forced headings for some geometries raise `IndexError`.
* C53: roads joined head to head, and closed loops, never get lane links.
* C58: a signal value without unit is written with the unit `None`.
* C60: arcs of length or angle 0 are accepted and make the road unadjustable.
* C61: the junction program raises `KeyError` unless the id of the junction is also the id of a road.
* C71: a lane offset given to a connecting road at its successor is ignored if the connecting road continues an anchor.
* C72: with a loop in the declared links, the order of the `add_road` calls decides where roads are placed.
* C73: roads that share a PlanView with a given start pose get its geometries once per road.
* C74: a lane offset makes lane links lead to a lane that is not there, unless all lanes are 3 wide, the driving
  directions agree and the offset does not cross the reference line.
* C76: the file of `examples/road_merge.py` contains a junction connection whose lane links are all wrong (as C50).
* C77: the file of `examples/road_merge_w_lane_merge.py` has two lane links between sections that lead to the wrong lane.
* C78: of two connecting roads that touch inside a junction only the one added first gets lane links, with the wrong sign
  if it is the second one in driving direction.
* C80: a second `adjust_roads_and_lanes` after adding roads raises `UndefinedRoadNetwork` or doubles the roads that were
  adjusted before.
* C81: lane links are kept in the Lane objects, so that roads that share a Lanes object are written with the links of all of them:
  n predecessors and n successors for each lane in a row of n + 1 roads, also at its two ends.
* C82: `run_road` does not quote the path of esmini: with a space in it the viewer is started on another file.
* C83: the error bound of a spiral contains abs(k0)/abs(k1 - k0): for a spiral whose curvature hardly changes `EulerSpiral.calc` subtracts Fresnel integrals of huge arguments and loses accuracy (for k1 = k0 exactly, another branch is taken and the result is accurate).
* C84: the direction after a ParamPoly3 is as accurate as its tangent is long: for a curve that nearly stops at its end the bound grows without limit. Only the forward adjustment is covered, because `get_start_data` of a ParamPoly3 is not the inverse of `get_end_data` even in exact arithmetic (C09).
* C85: with pretty printing (the default) the file is written in the encoding of the locale, but no encoding is declared: on a platform with Latin-1 (or cp1252) the name `Straße` makes a file that no XML reader accepts (`C85_latin1`); a character that the encoding does not have raises `UnicodeEncodeError` after the old file has been emptied (`C85_unencodable`). `write_xml` never replaces a file atomically (`C85_emptied`); but a file cut off at any byte is never read as another document (`C85_crash`).
* C63: pretty printing (the default) turns line breaks and tabs in names and ids into spaces; a control character in
* C89: a `Connection` object that is added to two junctions keeps its first id, so that two connections of the second junction can have the same id; a `Lane` object that is put into two sections is numbered by the last one (`C89_duplicate_id`, `C89_lane_number`).
* C90: an `Object` that is added to a second road gets a new id there (its own id counts as used), and is then emitted twice with that id (`C90_added_twice`).
* C12: a road of one ParamPoly3 that is placed from its end is written with a start from which the curve does not lead to that end; a straight
  one misses it by twice its length (`C12_poly`).
* C98: a lane offset `n` moves a road by 3 for each lane whatever the widths of the lanes are: with lanes `d` wide, lanes are linked whose edges
  are `(3 - d) * n` apart (`C98_offset_width`).
* C99: With several lane sections, the objects of a section are repeated up to the end of the road instead of the end of the section (C99_calls).
* C101: `_usedIDs` and `_IDCounter` are class attributes: a second document in the same process gets other object ids than in a fresh process, and a given id is silently replaced (a warning is printed)
  a name raises `ExpatError`, or without pretty printing gives an unreadable file.

## 6. Testing the theorems against wrong programs

`seeded/mutants.py` holds the edits, `seeded/run.py` applies each to a scratch copy, rebuilds, and records in
`seeded/LOG.jsonl` which theorems fail (directly, and through the lemmas they use). An edit that breaks a
claim whose theorems all still prove is a survivor; each survivor led to a tightened or an additional theorem.
The lines `auto:…` of the log are automatic edits (`seeded/auto.py`: boundaries, signs, swapped fields, literals, dropped updates) of all
model definitions; for these, `theorems_failed` names the first lemma or theorem that fails.
