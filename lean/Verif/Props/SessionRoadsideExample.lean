import Verif.Props.SessionRoadside
import Verif.Props.SessionDocumentExample

/-! # A program that meets the hypotheses of C99: that of C97, with poles on both sides of the first road -/

namespace Pyodrx.Props
open Pyodrx Pyodrx.Spec PyFloat

theorem connProg_names : ∀ x ob, .object x ob ∈ connProg false 0 → x < 60 := by
  intro x ob h
  simp [connProg, flLane] at h
  omega

theorem connProg_road0 : AddsLanes (connProg false 0) 0 0 (.int 1) 0 (-1) := by
  refine ⟨by simp [connProg], 0, none, none, by simp [connProg]⟩

theorem connProg_pole : .object 50 (exPole none) ∈ connProg false 0 := by simp [connProg]

theorem connProg_places : roadsidePlaces (connProg false 0) 0 .both = [(0, 1), (0, -1)] ∧
    placeLanes (connProg false 0) (0, 1) = [11] ∧ placeLanes (connProg false 0) (0, -1) = [12, 13] := by
  simp [roadsidePlaces, placeLanes, sectionCalls, leftCalls, rightCalls, connProg, flLane]

/-- Before `adjust_roads_and_lanes` the call raises. -/
example (dist so tof : Fl double) : Session.addObjectRoadside 60 0 50 dist so tof .both (runCalls (connProg false 0) flStart).2 =
    .error .roadsAndLanesNotAdjusted (runCalls (connProg false 0) flStart).2 :=
  C99_too_early _ _ flStart_blank 0 (connProg_laidOut 0) 0 (.int 1) 0 (-1) connProg_road0 50 60 dist so tof .both

theorem connProg_made0 : Call.road 0 (.int 1) 0 0 (-1) none none ∈ connProg false 0 := by simp [connProg]

theorem connProg_mem0 : 0 ∈ keepFirst (roadCalls 0 (connProg false 0)) := by
  rw [keepFirst_mem, roadCalls_mem]; simp [connProg]

theorem connProg_objects : objectCalls 0 (connProg false 0) = [51] ∧ (addedObjects (connProg false 0)).Nodup := by
  simp [objectCalls, addedObjects, connProg, flLane]

theorem shown_three (P : Nat × Int → RObject (Fl double) → Prop) (rd : RRoad (Fl double)) (Q : Nat → RObject (Fl double) → Prop)
    (h1 : List.Forall₂ Q [51] (rd.objects.take 1)) (h2 : List.Forall₂ P [(0, 1), (0, -1)] (rd.objects.drop 1))
    (h3 : (rd.objects.map (·.placed.id)).Nodup) : ∃ A B C, rd.objects = [A, B, C] ∧ P (0, 1) B ∧ P (0, -1) C ∧
        A.placed.id ≠ B.placed.id ∧ A.placed.id ≠ C.placed.id ∧ B.placed.id ≠ C.placed.id := by
  cases hO : rd.objects with
  | nil => rw [hO] at h1; cases h1
  | cons A rest =>
    rw [hO] at h2 h3
    simp only [List.drop_one, List.tail_cons] at h2
    rcases h2 with _ | ⟨l1, l2⟩
    rcases l2 with _ | ⟨l2, l3⟩
    cases l3
    refine ⟨A, _, _, rfl, l1, l2, ?_⟩
    simpa [and_assoc] using h3

/-- The document can be read after the call. -/
theorem connProg_readable (dist so tof : Fl double) (date : String) (s3 : Session (Fl double))
    (h1 : Session.addObjectRoadside 60 0 50 dist so tof .both (runCalls (connProg false 0 ++ [.adjust 0]) flStart).2 = .ok () s3)
    (element : Xml (Fl double)) (he : s3.getElement 0 date = .ok element) : ∃ doc, readDocument element = some doc := by
  have hlo := connProg_laidOut 0
  obtain ⟨element0, doc0, he0, hdoc0, -⟩ := connProg_document date
  have hdone : .openDrive 0 "doc" ∈ connProg false 0 := by simp [connProg]
  have hgood := (drawing_adjusted (connProg false 0) hlo.drawing flStart flStart_blank 0 "doc" hdone
    (laidOut_returns _ _ flStart_blank 0 hlo)).2
  have hv := List.mem_append_left [.adjust 0] connProg_made0
  have hproper := proper_adjust hlo.drawing.proper ⟨"doc", hdone⟩
  have hpole := List.mem_append_left [.adjust 0] connProg_pole
  generalize connProg false 0 ++ [.adjust 0] = p at *
  have hpv := roadside_adjusted _ hproper flStart 0 _ _ _ _ _ _ hv 50 60 dist so tof .both s3 h1
  exact C99_readable p hproper flStart 0 hgood 0 _ _ _ _ _ _ hv hpv 50 _ hpole 60 dist so tof .both date element0 he0 doc0 hdoc0 s3 h1 element he

/-- After it, the document can be read, and in it the first road has the pole that was added to it before and two more, one on the left
side and one on the right side, all with different ids. -/
theorem connProg_roadside (dist so tof : Fl double) (date : String) : ∃ s3 element doc,
    Session.addObjectRoadside 60 0 50 dist so tof .both (runCalls (connProg false 0 ++ [.adjust 0]) flStart).2 = .ok () s3 ∧
      s3.getElement 0 date = .ok element ∧ readDocument element = some doc ∧
      ∃ rd ∈ doc.roads, rd.id = "1" ∧ ∃ A B C, rd.objects = [A, B, C] ∧
        BesideShown (connProg false 0) 50 rd.length dist so tof (0, 1) B ∧ BesideShown (connProg false 0) 50 rd.length dist so tof (0, -1) C ∧
        A.placed.id ≠ B.placed.id ∧ A.placed.id ≠ C.placed.id ∧ B.placed.id ≠ C.placed.id := by
  have hlo := connProg_laidOut 0
  obtain ⟨s3, h1, h2⟩ := C99_adjusted (connProg false 0) flStart flStart_blank 0 hlo 0 (.int 1) 0 (-1) connProg_road0 50 _ connProg_pole 60
    connProg_names dist so tof .both
  obtain ⟨element, he, h2⟩ := h2 date
  obtain ⟨doc, hdoc⟩ := connProg_readable dist so tof date s3 h1 element he
  have h2 := h2 doc hdoc
  refine ⟨s3, element, doc, h1, he, hdoc, ?_⟩
  clear h1 he hdoc
  rw [connProg_places.1, connProg_objects.1] at h2
  have hproper := hlo.drawing.proper
  have hmade := connProg_made0
  have hmem := connProg_mem0
  have hnd := h2.2.2 connProg_objects.2
  have hobjs := connProg_objects.1
  obtain ⟨k1, k2, -⟩ := h2
  clear hlo
  generalize connProg false 0 = p at *
  have hroads := k1.roads
  rw [RDocument.withoutObjects, List.forall₂_map_right_iff] at hroads
  obtain ⟨n, hn⟩ := List.getElem?_of_mem hmem
  obtain ⟨rd, hrd, hr⟩ : ∃ rd ∈ doc.roads, RoadShown p 0
      (if rd.id = (PyId.int 1).toStr then { rd with objects := rd.objects.take [51].length } else rd) := by
    obtain ⟨m1, m2⟩ := List.forall₂_iff_get.mp hroads
    have hlt := (List.getElem?_eq_some_iff.mp hn).1
    have := m2 n hlt (m1 ▸ hlt)
    rw [List.get_eq_getElem, (List.getElem?_eq_some_iff.mp hn).2] at this
    exact ⟨_, List.getElem_mem _, this⟩
  obtain ⟨i, pv, l, n, ru, b1, b2, -⟩ := hr.made
  have hm := made_once hproper (x := .road 0) b1 hmade rfl rfl
  injection hm with _ e1 e2 e3 e4
  subst e1
  have hid : rd.id = (PyId.int 1).toStr := by
    split at b2
    · exact b2
    · exact b2
  have ho := hr.objects
  rw [if_pos hid, hobjs] at ho
  exact ⟨rd, hrd, hid, shown_three _ rd _ ho (k2 rd hrd hid) ((List.nodup_flatMap.mp hnd).1 rd hrd)⟩

end Pyodrx.Props
