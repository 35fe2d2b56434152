import Verif.Props.CreateJunction

/-! # C50: `create_junction` and roads that are not given -/

namespace Pyodrx.Props
open Pyodrx Pyodrx.Spec PyFloat

variable {F : Type} [PyFloat F]

/-- (a condition, not part of the model) The link `l` of a connecting road does not lead to one of the roads: it is missing, or no road has the id in it (as a Python value: the
text "2" is not the number 2). -/
def LeadsNowhere (roads : List (Road F)) (l : Option Link) : Prop := ∀ a, l = some a → ∀ r ∈ roads, r.id ≠ a.elementId

theorem junctionSign_missing (jr : Road F) (roads : List (Road F)) (id : PyId) (h : ∀ r ∈ roads, r.id ≠ id) :
    junctionSign jr roads id = .error .attributeError := by
  have : getRoadById roads id = none := by
    rw [getRoadById, List.find?_eq_none]
    intro r hr
    simpa using h r hr
  rw [junctionSign, this]

theorem connections_missing (jr : Road F) (roads : List (Road F)) (j : Junction) (hn : ∀ r ∈ roads, r.roadType = -1)
    (hl : jr.lanesections ≠ []) (h : LeadsNowhere roads jr.successor ∨ LeadsNowhere roads jr.predecessor) :
    junctionConnections jr roads j = .error .attributeError := by
  cases hs : jr.successor with
  | none => simp [junctionConnections, hs]
  | some s =>
    by_cases hfound : ∃ r ∈ roads, r.id = s.elementId
    · have hp : LeadsNowhere roads jr.predecessor := by
        rcases h with h | h
        · obtain ⟨r, hr, hid⟩ := hfound
          exact absurd hid (h s hs r hr)
        · exact h
      obtain ⟨s1, e1, -⟩ := secAt_last jr hl
      have g1 := junctionSign_succ jr roads hn s hs hfound
      cases hpp : jr.predecessor with
      | none => simp [junctionConnections, hs, hpp, g1, e1, createJunctionLinks?, bind, Except.bind]
      | some p =>
        have g2 := junctionSign_missing jr roads p.elementId (hp p hpp)
        simp [junctionConnections, hs, hpp, g1, g2, e1, createJunctionLinks?, bind, Except.bind]
    · have g := junctionSign_missing jr roads s.elementId (fun r hr he => hfound ⟨r, hr, he⟩)
      simp [junctionConnections, hs, g, bind, Except.bind]

/-- **C50**: if the successor or the predecessor of one of the connecting roads is missing, or leads to a road that is not given,
`create_junction` raises `AttributeError`. -/
theorem C50_leads_nowhere (jrs : List (Road F)) (id : PyId) (roads : List (Road F)) (hn : ∀ r ∈ roads, r.roadType = -1)
    (h : ∀ jr ∈ jrs, jr.lanesections ≠ [] ∧
      (Connects roads jr ∨ LeadsNowhere roads jr.successor ∨ LeadsNowhere roads jr.predecessor))
    (hm : ∃ jr ∈ jrs, LeadsNowhere roads jr.successor ∨ LeadsNowhere roads jr.predecessor) :
    createJunction jrs id roads = .error .attributeError := by
  have key : ∀ (l : List (Road F)) (j : Junction), (∀ jr ∈ l, jr.lanesections ≠ [] ∧
        (Connects roads jr ∨ LeadsNowhere roads jr.successor ∨ LeadsNowhere roads jr.predecessor)) →
      (∃ jr ∈ l, LeadsNowhere roads jr.successor ∨ LeadsNowhere roads jr.predecessor) →
      l.foldlM (fun j jr => junctionConnections jr roads j) j = Except.error PyErr.attributeError := by
    intro l
    induction l with
    | nil => rintro j - ⟨_, h, -⟩; cases h
    | cons jr l ih =>
      intro j hall hex
      rw [List.foldlM_cons]
      by_cases hj : LeadsNowhere roads jr.successor ∨ LeadsNowhere roads jr.predecessor
      · rw [connections_missing jr roads j hn (hall jr (by simp)).1 hj]; rfl
      · obtain ⟨c1, c2, e, -, -⟩ := junctionConnections_eq jr roads j hn ((hall jr (by simp)).2.resolve_right hj)
        rw [e]
        refine ih _ (fun x hx => hall x (List.mem_cons_of_mem _ hx)) ?_
        obtain ⟨x, hx, hx'⟩ := hex
        rcases List.mem_cons.mp hx with rfl | hx
        · exact absurd hx' hj
        · exact ⟨x, hx, hx'⟩
  exact key jrs _ h hm

/-- **C50**: what `create_junction` does with connecting roads that have lanes, whose ends lead to different roads or to none of the roads given:
it returns a junction exactly if all of their ends lead to roads given. -/
theorem C50_returns (jrs : List (Road F)) (id : PyId) (roads : List (Road F)) (hn : ∀ r ∈ roads, r.roadType = -1)
    (h : ∀ jr ∈ jrs, jr.lanesections ≠ [] ∧ ∀ p s, jr.predecessor = some p → jr.successor = some s → p.elementId ≠ s.elementId) :
    (∃ j, createJunction jrs id roads = .ok j) ↔
      ∀ jr ∈ jrs, ¬ LeadsNowhere roads jr.successor ∧ ¬ LeadsNowhere roads jr.predecessor := by
  have conn : ∀ jr ∈ jrs, ¬ LeadsNowhere roads jr.successor → ¬ LeadsNowhere roads jr.predecessor → Connects roads jr := by
    intro jr hjr h1 h2
    simp only [LeadsNowhere, not_forall, not_not] at h1 h2
    obtain ⟨s, hs, rs, hrs, hrs'⟩ := h1
    obtain ⟨p, hp, rp, hrp, hrp'⟩ := h2
    exact ⟨⟨p, s, hp, hs, (h jr hjr).2 p s hp hs, ⟨rp, hrp, hrp'⟩, ⟨rs, hrs, hrs'⟩⟩, (h jr hjr).1⟩
  constructor
  · rintro ⟨j, hj⟩
    by_contra hno
    have hm : ∃ jr ∈ jrs, LeadsNowhere roads jr.successor ∨ LeadsNowhere roads jr.predecessor := by
      push Not at hno
      obtain ⟨jr, h1, h2⟩ := hno
      refine ⟨jr, h1, ?_⟩
      by_cases h3 : LeadsNowhere roads jr.successor
      · exact .inl h3
      · exact .inr (h2 h3)
    rw [C50_leads_nowhere jrs id roads hn (fun jr hjr => ⟨(h jr hjr).1, ?_⟩) hm] at hj
    · cases hj
    · by_cases h1 : LeadsNowhere roads jr.successor
      · exact .inr (.inl h1)
      · by_cases h2 : LeadsNowhere roads jr.predecessor
        · exact .inr (.inr h2)
        · exact .inl (conn jr hjr h1 h2)
  · intro hall
    obtain ⟨j, hj, -⟩ := C50_create_junction jrs id roads hn fun jr hjr => conn jr hjr (hall jr hjr).1 (hall jr hjr).2
    exact ⟨j, hj⟩

/-- A connecting road between the roads 1 and 2; `txt`: the successor is given as the text "2", not as a number. -/
def exConn (pv : PlanView F) (sec : LaneSection F) (txt : Bool) : Road F :=
  { Road.new (.int 100) pv [sec] 7 none none with
    predecessor := some ⟨.predecessor, .int 1, some .road, some .end, none⟩
    successor := some ⟨.successor, if txt then .str "2" else .int 2, some .road, some .start, none⟩ }

/-- With the number `create_junction` returns, with the text it raises. -/
example (pv : PlanView F) (sec : LaneSection F) :
    (∃ j, createJunction [exConn pv sec false] (.int 7)
      [Road.new (.int 1) pv [sec] (-1) none none, Road.new (.int 2) pv [sec] (-1) none none] = .ok j) ∧
    ¬ ∃ j, createJunction [exConn pv sec false, exConn pv sec true] (.int 7)
      [Road.new (.int 1) pv [sec] (-1) none none, Road.new (.int 2) pv [sec] (-1) none none] = .ok j := by
  have hn : ∀ r ∈ [Road.new (.int 1) pv [sec] (-1) none none, Road.new (.int 2) pv [sec] (-1) none none], r.roadType = -1 := by
    intro r hr; simp at hr; rcases hr with rfl | rfl <;> rfl
  constructor
  · rw [C50_returns _ _ _ hn]
    · simp [LeadsNowhere, exConn, Road.new]
    · simp [exConn, Road.new]
  · rw [C50_returns _ _ _ hn]
    · simp [LeadsNowhere, exConn, Road.new]
    · simp [exConn, Road.new]

end Pyodrx.Props
