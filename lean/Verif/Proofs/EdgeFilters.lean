import Verif.Proofs.Schemes
import Mathlib.Data.List.Induction
/-
The edge filters: one new point per entry of the edge list; the last entry of an edge gives its point.
-/
namespace Verif
set_option linter.unusedSectionVars false
variable {K P D : Type} [Field K] [Zero P] [Add P] [SMul K P]

theorem lastLabel_nil (n : Nat) : lastLabel n [] = fun _ => none := rfl

theorem lastLabel_append (n : Nat) (es : List Edge) (e x : Edge) :
    lastLabel n (es ++ [e]) x = if e = x ∨ e = x.sym then some (n + es.length) else lastLabel n es x := by
  simp [lastLabel, lastLabelRev]

theorem lastLabel_eq {n : Nat} {es : List Edge} (h : DistinctEdges es) : lastLabel n es = labelOf n es := by
  induction es using List.reverseRecOn with
  | nil => rw [lastLabel_nil, labelOf_nil]
  | append_singleton es e ih =>
    unfold DistinctEdges at h
    rw [List.pairwise_append] at h
    obtain ⟨h1, _, h3⟩ := h
    funext x
    rw [lastLabel_append, ih h1, labelOf_append]
    · have : (e = x ∨ e = x.sym) ↔ (x = e ∨ x = e.sym) := by
        constructor
        · rintro (rfl | rfl)
          · exact Or.inl rfl
          · exact Or.inr (by simp)
        · rintro (rfl | rfl)
          · exact Or.inl rfl
          · exact Or.inr (by simp)
      simp only [this]
    · intro hc; exact (h3 e hc e (by simp)).1 rfl
    · intro hc; exact (h3 _ hc e (by simp)).2 rfl

theorem lastLabelRev_range {n : Nat} {r : List Edge} {e : Edge} {m : PId} (h : lastLabelRev n r e = some m) :
    n ≤ m ∧ m < n + r.length := by
  induction r with
  | nil => cases h
  | cons e' r ih =>
    unfold lastLabelRev at h
    split at h
    · have := Option.some.inj h
      subst this
      exact ⟨Nat.le_add_right _ _, by simp⟩
    · have := ih h
      exact ⟨this.1, Nat.lt_of_lt_of_le this.2 (by simp)⟩

theorem lastLabelRev_sym (n : Nat) (r : List Edge) (e : Edge) : lastLabelRev n r e.sym = lastLabelRev n r e := by
  induction r with
  | nil => rfl
  | cons e' r ih =>
    unfold lastLabelRev
    rw [Edge.sym_sym, ih]
    simp only [or_comm]

theorem lastLabelRev_inj {n : Nat} {r : List Edge} {e e' : Edge} {m : PId} (h : lastLabelRev n r e = some m)
    (h' : lastLabelRev n r e' = some m) : e' = e ∨ e' = e.sym := by
  induction r with
  | nil => cases h
  | cons x r ih =>
    unfold lastLabelRev at h h'
    split at h
    · rename_i h1
      split at h'
      · rename_i h2
        rcases h1 with rfl | rfl <;> rcases h2 with h2 | h2
        · exact Or.inl h2.symm
        · exact Or.inr (Edge.sym_eq_iff.1 h2.symm)
        · exact Or.inr h2.symm
        · exact Or.inl (Edge.sym_inj h2).symm
      · have := lastLabelRev_range h'
        have h3 := Option.some.inj h
        subst h3
        exact absurd this.2 (Nat.lt_irrefl _)
    · split at h'
      · have := lastLabelRev_range h
        have h3 := Option.some.inj h'
        subst h3
        exact absurd this.2 (Nat.lt_irrefl _)
      · exact ih h h'

theorem lastLabelRev_isSome (n : Nat) (r : List Edge) (e : Edge) :
    (lastLabelRev n r e).isSome ↔ e ∈ r ∨ e.sym ∈ r := by
  induction r with
  | nil => simp [lastLabelRev]
  | cons x r ih =>
    unfold lastLabelRev
    split
    · rename_i h
      rcases h with rfl | rfl <;> simp
    · rename_i h
      rw [not_or] at h
      rw [ih, List.mem_cons, List.mem_cons]
      have h1 : e ≠ x := fun hc => h.1 hc.symm
      have h2 : e.sym ≠ x := fun hc => h.2 hc.symm
      tauto

theorem lastLabel_isSome (n : Nat) (es : List Edge) (e : Edge) :
    (lastLabel n es e).isSome ↔ e ∈ es ∨ e.sym ∈ es := by
  unfold lastLabel; rw [lastLabelRev_isSome]; simp

theorem lastLabel_range {n : Nat} {es : List Edge} {e : Edge} {m : PId} (h : lastLabel n es e = some m) :
    n ≤ m ∧ m < n + es.length := by
  simpa using lastLabelRev_range h

theorem labelling_lastLabel {T : List Tri} {n : Nat} (h : ∀ t ∈ T, ∀ v ∈ t.verts, v < n) (es : List Edge) :
    Labelling T (lastLabel n es) := by
  refine ⟨lastLabelRev_sym n _, ?_, fun e e' m => lastLabelRev_inj⟩
  intro e m hm t ht hv
  exact absurd (h t ht _ hv) (Nat.not_lt.2 (lastLabel_range hm).1)

/-- the state during the point phase of an edge filter -/
def edgeState (s0 : St P D) (base : List P) (pt : Edge → P) (es : List Edge) : St P D :=
  ⟨{ s0.filt with epi := lastLabel base.length es },
   { s0.out with points := AMap.dense (base ++ es.map pt) }⟩

theorem addNewEdgePoint_ok {np : Edge → Except Fail P} {pt : Edge → P} {e : Edge} (hp : np e = .ok (pt e))
    (s0 : St P D) (base : List P) (es : List Edge) :
    addNewEdgePoint np e (edgeState s0 base pt es) = (.ok (), edgeState s0 base pt (es ++ [e])) := by
  unfold addNewEdgePoint
  rw [hp, lift_ok_bind, numberOfPoints_bind]
  have hn : (edgeState s0 base pt es).out.points.length = base.length + es.length := by simp [edgeState]
  rw [hn]
  have e1 : (fun x => if x = e.sym then some (base.length + es.length)
          else if x = e then some (base.length + es.length) else lastLabel base.length es x) =
      lastLabel base.length (es ++ [e]) := by
    funext x
    rw [lastLabel_append]
    by_cases hx : x = e.sym
    · simp [hx]
    · by_cases hx2 : x = e
      · simp [hx2]
      · have h1 : e ≠ x := fun hc => hx2 hc.symm
        have h2 : e ≠ x.sym := fun hc => hx (Edge.sym_eq_iff.1 hc.symm)
        simp [hx, hx2, h1, h2]
  have e2 : (AMap.dense (base ++ es.map pt)).set (base.length + es.length) (pt e) =
      AMap.dense (base ++ (es ++ [e]).map pt) := by
    have := AMap.set_dense_length (base ++ es.map pt) (pt e)
    simp only [List.length_append, List.length_map] at this
    rw [this]
    simp
  unfold edgeState
  rw [← e1, ← e2]
  rfl

theorem forEach_edgePoints {np : Edge → Except Fail P} {pt : Edge → P} (l : List Edge)
    (hp : ∀ e ∈ l, np e = .ok (pt e)) (s0 : St P D) (base : List P) (es : List Edge) :
    Prog.forEach (addNewEdgePoint np) l (edgeState s0 base pt es) = (.ok (), edgeState s0 base pt (es ++ l)) := by
  induction l generalizing es with
  | nil => simp [Prog.forEach, Prog.pure]
  | cons e l ih =>
    simp only [Prog.forEach]
    rw [Prog.bind_ok (addNewEdgePoint_ok (hp e (by simp)) s0 base es), ih (fun e he => hp e (by simp [he]))]
    simp

theorem forEach_optEdges {np : Edge → Except Fail P} {pt : Edge → P} (l : List (Option Edge))
    (hp : ∀ e, some e ∈ l → np e = .ok (pt e)) (s0 : St P D) (base : List P) (es : List Edge) :
    Prog.forEach (fun oe : Option Edge =>
        match oe with
        | some e => addNewEdgePoint np e
        | none => Prog.pure ()) l (edgeState s0 base pt es) =
      (.ok (), edgeState s0 base pt (es ++ l.filterMap id)) := by
  induction l generalizing es with
  | nil => simp [Prog.forEach, Prog.pure]
  | cons e l ih =>
    rcases e with _ | e
    · simp only [Prog.forEach, Prog.pure_bind']
      rw [ih (fun e he => hp e (by simp [he]))]
      simp
    · simp only [Prog.forEach]
      rw [Prog.bind_ok (addNewEdgePoint_ok (hp e (by simp)) s0 base es), ih (fun e he => hp e (by simp [he]))]
      simp

/-- The point phase of the edge filters. -/
theorem edgeOutputPoints_ok {inp : Mesh P D} (hv : inp.Valid) {f : Filt} (hsel : inp.EdgeSelOK f.edgeSel)
    {copy : M P D Unit} {np : Edge → Except Fail P} {base : List P} {pt : Edge → P}
    (hcopy : copy ⟨f, Mesh.empty⟩ = (.ok (), ⟨f, { (Mesh.empty : Mesh P D) with points := AMap.dense base }⟩))
    (hp : ∀ e, inp.IsEdge e → np e = .ok (pt e)) :
    edgeOutputPoints copy (addNewEdgePoint np) inp ⟨f, Mesh.empty⟩ =
      (.ok (), edgeState ⟨{ f with uniform := f.edgeSel.isEmpty }, Mesh.empty⟩ base pt (inp.selectedEdges f.edgeSel)) := by
  unfold edgeOutputPoints
  rw [Prog.bind_ok hcopy]
  change (if f.edgeSel.isEmpty = true then
    (if inp.hasEdgeCells = true then Prog.forEach _ inp.edges _ else (.error (.exc .noEdges), _)) else
    Prog.forEach _ f.edgeSel _) = _
  have hstart : (⟨{ cells := f.cells, edgeSel := f.edgeSel, uniform := f.edgeSel.isEmpty, epi := fun _ => none },
      { (Mesh.empty : Mesh P D) with points := AMap.dense base }⟩ : St P D) =
      edgeState ⟨{ f with uniform := f.edgeSel.isEmpty }, Mesh.empty⟩ base pt [] := by
    simp [edgeState, lastLabel_nil]
  unfold Mesh.selectedEdges
  by_cases hu : f.edgeSel.isEmpty = true
  · rw [if_pos hu, if_pos hv.has_edge_cells, if_pos hu]
    rw [hstart, forEach_edgePoints _ (fun e he => hp e (Or.inl he))]
    simp
  · rw [if_neg hu, if_neg hu]
    rw [hstart]
    refine (forEach_optEdges _ (fun e he => hp e (hsel e he)) _ _ _).trans ?_
    simp

/-- The edge filters return, and this is what they produce. -/
theorem edgeUpdate_ok {sch : EdgeScheme} (lib : QELib) (cosn : Nat → K) {f : Filt} {inp : Mesh P D}
    (hn : sch.toScheme.Needs inp) (hsel : inp.EdgeSelOK f.edgeSel) :
    ∃ out f', edgeUpdate sch lib cosn f inp = (.ok out, f') ∧
      FaceSplitResult lib inp out f f' f.edgeSel.isEmpty
        (lastLabel inp.points.length (inp.selectedEdges f.edgeSel))
        ((List.range inp.points.length).map inp.coord ++
          (inp.selectedEdges f.edgeSel).map (valueOf (schemePoint sch.toScheme K inp))) := by
  have hv := hn.valid
  have hlt : ∀ t ∈ inp.tris, ∀ v ∈ t.verts, v < inp.points.length := fun t ht v hvv => hv.verts_lt ht hvv
  have main : ∀ (copy : M P D Unit),
      copy ⟨f, Mesh.empty⟩ = (.ok (), ⟨f, { (Mesh.empty : Mesh P D) with
        points := AMap.dense ((List.range inp.points.length).map inp.coord) }⟩) →
      ∃ out f', runFilter lib (generateData (edgeOutputPoints copy
          (addNewEdgePoint (schemePoint sch.toScheme K inp)) inp) (generateOutputCells inp)) f = (.ok out, f') ∧
        FaceSplitResult lib inp out f f' f.edgeSel.isEmpty
        (lastLabel inp.points.length (inp.selectedEdges f.edgeSel))
        ((List.range inp.points.length).map inp.coord ++
          (inp.selectedEdges f.edgeSel).map (valueOf (schemePoint sch.toScheme K inp))) := by
    intro copy hcopy
    have h1 := edgeOutputPoints_ok hv hsel hcopy
      (fun e he => valueOf_ok (schemePoint_ok (K := K) hn he))
    refine cellPhase_ok hv lib (labelling_lastLabel hlt _) ?_ (by simp) ?_
    · intro e m hm
      have := lastLabel_range hm
      simpa using this
    · rw [h1]
      unfold edgeState
      simp
  cases sch with
  | linear => exact main _ (copyPoints_ok hv f)
  | loop => exact main _ (loopEdgeCopy_ok cosn hv (hn.ring (Or.inl rfl)) (hn.noIsolated rfl) f)
  | butterfly => exact main _ (copyPoints_ok hv f)

end Verif
