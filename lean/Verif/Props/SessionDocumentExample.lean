import Verif.Props.SessionDocumentJoints
import Verif.Props.SessionJointsExample

/-! # A program that meets the hypotheses of C97: that of C92, with two roads and a connecting road -/

namespace Pyodrx.Props
open Pyodrx Pyodrx.Spec PyFloat

theorem connProg_plain (off : Int) (wd : Int := 3) : PlainLanes (connProg false off wd) where
  links := by intro l k id h; simp [connProg, flLane] at h
  linkers := by
    intro x sec ls h
    simp [connProg, flLane] at h
    rcases h with ⟨-, -, h⟩ | ⟨-, -, h⟩ | ⟨-, -, h⟩ <;> exact h

theorem connProg_geometry (off : Int) (wd : Int := 3) : DrawnGeometry (connProg false off wd) 0 where
  one := by
    intro v i pv l t n ru h1 h2 _
    obtain ⟨rfl, -, -, -, -⟩ := connProg_road h2
    obtain ⟨h, -⟩ | ⟨h, -⟩ | ⟨h, -⟩ | ⟨h, -⟩ := connProg_adds (lost := false) (off := off) ⟨h1, _, _, _, _, h2⟩ <;> subst h <;>
      simp [geometryCalls, connProg, flLane]
  poly := by
    intro v i pv l t n ru g h x h1 h2 _ h3 hx
    obtain ⟨rfl, -, -, -, -⟩ := connProg_road h2
    simp [connProg, flLane, flGeom] at h1 h3 hx
    omega
  range := by
    intro g x hx
    simp [connProg, flLane, flGeom] at hx
    simp [hx]

/-- Its document can be read, and in it the one lane of the connecting road is linked to the right lanes of both roads. -/
theorem connProg_document (date : String) : ∃ element doc, (runCalls (connProg false 0 ++ [.adjust 0]) flStart).2.getElement 0 date = .ok element ∧
    readDocument element = some doc ∧ DocumentShown (connProg false 0) 0 doc ∧ ∃ rd ∈ doc.roads, rd.id = "100" ∧
      ∃ S L, rd.endSection .start = some S ∧ S.right = [L] ∧ L.id = -1 ∧ L.linksTo "predecessor" = [readLaneLinkTo "predecessor" (-1)] ∧
        L.linksTo "successor" = [readLaneLinkTo "successor" (-1)] := by
  have hlo := (connProg_laidOut 0)
  obtain ⟨element, he, hshown⟩ := C97_adjusted (connProg false 0) flStart flStart_blank 0 hlo date
  obtain ⟨hnet, hone, hrange⟩ := program_drawn (connProg false 0) flStart flStart_blank 0 hlo (connProg_geometry 0)
  obtain ⟨hadj, hgood⟩ := drawing_adjusted (connProg false 0) hlo.drawing flStart flStart_blank 0 "doc" (by simp [connProg])
    (laidOut_returns _ _ flStart_blank 0 hlo)
  obtain ⟨doc, hdoc⟩ := C86_readable _ _ hnet hadj _ _ date rfl rfl hgood element he hone hrange
  refine ⟨element, doc, he, hdoc, hshown doc hdoc, ?_⟩
  have added : ∀ v i t, AddsRoad (connProg false 0) 0 v i t → AddsLanes (connProg false 0) 0 v i v t := by
    rintro v i t ⟨h1, pv, l, n, ru, h2⟩
    obtain ⟨-, rfl, -⟩ := connProg_road h2
    exact ⟨h1, _, _, _, h2⟩
  obtain ⟨a1, a2, a3, -⟩ := connProg_added false 0
  have hroads := (hshown doc hdoc).roads
  have hmem : 2 ∈ keepFirst (roadCalls 0 (connProg false 0)) := by
    rw [keepFirst_mem, roadCalls_mem]; simp [connProg]
  obtain ⟨n, hn⟩ := List.getElem?_of_mem hmem
  obtain ⟨rd, hrd, hr⟩ : ∃ rd ∈ doc.roads, RoadShown (connProg false 0) 2 rd := by
    obtain ⟨m1, m2⟩ := List.forall₂_iff_get.mp hroads
    have hlt := (List.getElem?_eq_some_iff.mp hn).1
    have := m2 n hlt (m1 ▸ hlt)
    rw [List.get_eq_getElem, (List.getElem?_eq_some_iff.mp hn).2] at this
    exact ⟨_, List.getElem_mem _, this⟩
  obtain ⟨i, pv, l, n, ru, b1, b2, -, -, b3⟩ := hr.made
  have hm := made_once hlo.drawing.proper (x := .road 2) b1 (by simp [connProg] : Call.road 2 (.int 100) 2 2 7 none none ∈ connProg false 0) rfl rfl
  injection hm with _ e1 e2 e3 e4
  subst e1 e3
  have hsec : sectionCalls 2 (connProg false 0) = [2] := by simp [sectionCalls, connProg, flLane]
  have hright : rightCalls 2 (connProg false 0) = [31] := by simp [rightCalls, connProg, flLane]
  rw [hsec] at b3
  cases hS : rd.sections with
  | nil => rw [hS] at b3; cases b3
  | cons S rest =>
    rw [hS] at b3
    rcases b3 with _ | ⟨b3, b4⟩
    cases b4
    have hs1 : rd.endSection .start = some S := by simp [RRoad.endSection, hS]
    have hs2 : rd.endSection .end = some S := by simp [RRoad.endSection, hS]
    have hid := b3.rightIds
    rw [hright] at hid
    have hid' : S.right.map RLane.id = [-1] := hid
    obtain ⟨L, hL, hLid⟩ : ∃ L, S.right = [L] ∧ L.id = -1 := by
      cases hr : S.right with
      | nil => rw [hr] at hid'; cases hid'
      | cons L rest =>
        rw [hr] at hid'
        simp at hid'
        exact ⟨L, by rw [hid'.2], hid'.1⟩
    refine ⟨rd, hrd, b2, S, L, hs1, hL, hLid, ?_, ?_⟩
    · obtain ⟨S', c1, c2⟩ := C97_connecting (connProg false 0) flStart flStart_blank 0 hlo (connProg_plain 0) date element he doc hdoc 2 0 _ _ 2 0 7 (-1)
        (by decide) (added _ _ _ a3) (added _ _ _ a1) .start ⟨.predecessor, .int 1, some .road, some .end, none⟩
        (by simp [linkCall, connProg_preds]) rfl rd hrd b2
      rw [hs1] at c1; cases c1
      have := c2 L (by simp [hL])
      rw [hLid, show offsetCall 2 (connProg false 0) .start = 0 by simp [offsetCall, connProg_preds]] at this
      exact this
    · obtain ⟨S', c1, c2⟩ := C97_connecting (connProg false 0) flStart flStart_blank 0 hlo (connProg_plain 0) date element he doc hdoc 2 1 _ _ 2 1 7 (-1)
        (by decide) (added _ _ _ a3) (added _ _ _ a2) .end ⟨.successor, .int 2, some .road, some .start, none⟩
        (by simp [linkCall, connProg_succs]) rfl rd hrd b2
      rw [hs2] at c1; cases c1
      have := c2 L (by simp [hL])
      rw [hLid, show offsetCall 2 (connProg false 0) .end = 0 by simp [offsetCall, connProg_succs]] at this
      exact this

end Pyodrx.Props
