import Verif.Proofs.Local
import Verif.Properties.Levels
import Verif.Properties.Samples
/-
C57: refinement is local.
-/
namespace Verif
set_option linter.unusedSectionVars false
variable {K P D : Type} [Field K] [Zero P] [Add P] [SMul K P] {sch : Scheme} {lib : QELib} {cosn : Nat → K}

/-- C57, one run of a face split by any filter object: exactly the cells without an edge in common with a selected cell are
in the output as they are, and their data with them. -/
theorem C57_far_cells_kept {f f' : Filt} {inp out : Mesh P D} (hs : sch ≠ .sqrt3) (hn : sch.Needs inp)
    (hsel : inp.SelOK f.cells) (h : cellUpdate sch lib cosn f inp = (.ok out, f')) :
    ∀ k (t : Tri), (k, some t.cell) ∈ inp.cells →
      (t ∈ out.tris ↔ t.Apart (inp.selected f.cells)) ∧ (t.Apart (inp.selected f.cells) → out.HasCell t (inp.dataAt k)) := by
  intro k t hk
  have ht : t ∈ inp.tris := hn.valid.mem_tris.2 ⟨k, hk⟩
  have key := fun hf => (faceSplit_far hs hn hsel h ⟨k, hk, rfl⟩ hf (d := inp.dataAt k) (t := t)).1
  refine ⟨⟨fun h1 => (faceSplit_old hs hn hsel h (fun v hv => hn.valid.verts_lt ht hv) h1).2, fun h1 => ?_⟩, key⟩
  obtain ⟨k', hk', -⟩ := key h1
  exact (C04_output_valid hs hn hsel h).1.mem_tris.2 ⟨k', hk'⟩

example (out : Mesh Q3 Nat) (f' : Filt) (h : cellUpdate .loop someLib cos0 (usedFilt [1]) patchMesh = (.ok out, f')) :
    out.HasCell (2, 1, 4) (some 9) ∧ (0, 1, 2) ∉ out.tris := by
  have key := C57_far_cells_kept (by decide) (patchMesh_needs _) (show patchMesh.SelOK [1] by unfold Mesh.SelOK; decide) h
  refine ⟨(key 2 (2, 1, 4) (by decide)).2 ?_, fun hc => ?_⟩
  · unfold Tri.Apart; decide
  · have := (key 0 (0, 1, 2) (by decide)).1.1 hc
    revert this; unfold Tri.Apart; decide

/-- C57, SquareThree: exactly the unselected cells are in the output as they are. -/
theorem C57_far_cells_kept_sqrt3 {f f' : Filt} {inp out : Mesh P D} (hv : inp.Valid) (hsel : inp.SelOK f.cells)
    (hmax : inp.points.length + (inp.selected f.cells).length ≤ idMax)
    (h : cellUpdate .sqrt3 lib cosn f inp = (.ok out, f')) :
    ∀ k (t : Tri), (k, some t.cell) ∈ inp.cells →
      (t ∈ out.tris ↔ t ∉ inp.selected f.cells) ∧ (t ∉ inp.selected f.cells → out.HasCell t (inp.dataAt k)) := by
  intro k t hk
  have ht : t ∈ inp.tris := hv.mem_tris.2 ⟨k, hk⟩
  have key := fun hf => (sqrt3_far hv hsel hmax h ⟨k, hk, rfl⟩ hf (d := inp.dataAt k) (t := t)).1
  refine ⟨⟨fun h1 => (sqrt3_old hv hsel hmax h (fun v hv' => hv.verts_lt ht hv') h1).2, fun h1 => ?_⟩, key⟩
  obtain ⟨k', hk', -⟩ := key h1
  exact (C13_sqrt3_valid hv hsel hmax h).1.mem_tris.2 ⟨k', hk'⟩

example (out : Mesh Q3 Nat) (f' : Filt) (h : cellUpdate .sqrt3 someLib cos0 (usedFilt [1]) patchMesh = (.ok out, f')) :
    out.HasCell (0, 1, 2) (some 7) ∧ (1, 0, 3) ∉ out.tris := by
  have key := C57_far_cells_kept_sqrt3 patchMesh_ok.1 (show patchMesh.SelOK [1] by unfold Mesh.SelOK; decide) (by decide) h
  refine ⟨(key 0 (0, 1, 2) (by decide)).2 (by decide), fun hc => ?_⟩
  exact (key 1 (1, 0, 3) (by decide)).1.1 hc (by decide)

/-- C57, any number of levels of a face split: the refined region does not grow beyond the neighbours of the selected
cells.  However many levels, exactly the cells without an edge in common with a selected cell are in the output as they
are, with their data. -/
theorem C57_far_cells_kept_iterative {f : Iter} {inp out : Mesh P D} (hs : sch ≠ .sqrt3)
    (hl : sch = .loop ∨ sch = .butterfly → lib.Lawful) (hn : sch.Needs inp) (hsel : inp.SelOK f.cells)
    (h : (iterUpdate sch lib cosn f inp).1 = .ok out) :
    ∀ k (t : Tri), (k, some t.cell) ∈ inp.cells →
      ((∃ k', (k', some t.cell) ∈ out.cells) ↔ t.Apart (inp.selected f.cells)) ∧
      (t.Apart (inp.selected f.cells) → out.HasCell t (inp.dataAt k)) := by
  intro k t hk
  have hid : sch.IdsLeft (max 1 f.levels) inp f.cells := fun h => absurd h hs
  have ht : t ∈ inp.tris := hn.valid.mem_tris.2 ⟨k, hk⟩
  have key : t.Apart (inp.selected f.cells) → out.HasCell t (inp.dataAt k) := by
    intro hf
    obtain ⟨s, h1, -⟩ := iter_induct (cosn := cosn) (f := f) hl (fun m sel => m.HasCell t (inp.dataAt k) ∧ t.Apart (m.selected sel))
      (fun m out sel f' hm hsel _ _ h hI => faceSplit_far hs hm (f := Filt.new.setCells sel) hsel h hI.1 hI.2) hn hsel hid
      ⟨⟨k, hk, rfl⟩, hf⟩ h
    exact h1
  refine ⟨⟨fun hin => ?_, fun hf => ?_⟩, key⟩
  · by_contra hf
    have key2 := iter_induct_first (cosn := cosn) (f := f) hl
      (fun m _ => (∀ k', (k', some t.cell) ∉ m.cells) ∧ inp.points.length ≤ m.points.length) ?_ ?_ hn hsel hid h
    · obtain ⟨k', hk'⟩ := hin
      obtain ⟨s, h1, -⟩ := key2
      exact h1 k' hk'
    · intro out f' hmax h
      refine ⟨fun k' hk' => ?_, cellUpdate_more_points (f := Filt.new.setCells f.cells) hn hsel hmax h⟩
      exact hf (faceSplit_old hs hn (f := Filt.new.setCells f.cells) hsel h (fun v hv => hn.valid.verts_lt ht hv)
        ((C04_output_valid hs hn (f := Filt.new.setCells f.cells) hsel h).1.mem_tris.2 ⟨k', hk'⟩)).2
    · intro m out sel f' hm hsel _ hmax h hI
      refine ⟨fun k' hk' => ?_, Nat.le_trans hI.2 (cellUpdate_more_points (f := Filt.new.setCells sel) hm hsel hmax h)⟩
      have := (faceSplit_old hs hm (f := Filt.new.setCells sel) hsel h
        (fun v hv => Nat.lt_of_lt_of_le (hn.valid.verts_lt ht hv) hI.2)
        ((C04_output_valid hs hm (f := Filt.new.setCells sel) hsel h).1.mem_tris.2 ⟨k', hk'⟩)).1
      obtain ⟨k2, hk2⟩ := hm.valid.mem_tris.1 this
      exact hI.1 k2 hk2
  · obtain ⟨k', hk', -⟩ := key hf
    exact ⟨k', hk'⟩

example (out : Mesh Q3 Nat) (h : (iterUpdate .butterfly someLib cos0 ⟨[1], 7, []⟩ patchMesh).1 = .ok out) :
    out.HasCell (2, 1, 4) (some 9) ∧ out.HasCell (0, 2, 5) none := by
  have key := C57_far_cells_kept_iterative (by decide) (fun _ => someLib_lawful) (patchMesh_needs _)
    (show patchMesh.SelOK [1] by unfold Mesh.SelOK; decide) h
  exact ⟨(key 2 (2, 1, 4) (by decide)).2 (by unfold Tri.Apart; decide),
    (key 3 (0, 2, 5) (by decide)).2 (by unfold Tri.Apart; decide)⟩

/-- C57, any number of levels of SquareThree: exactly the unselected cells are in the output as they are. -/
theorem C57_far_cells_kept_sqrt3_iterative {f : Iter} {inp out : Mesh P D} (hv : inp.Valid) (hsel : inp.SelOK f.cells)
    (hid : Scheme.sqrt3.IdsLeft (max 1 f.levels) inp f.cells) (h : (iterUpdate .sqrt3 lib cosn f inp).1 = .ok out) :
    ∀ k (t : Tri), (k, some t.cell) ∈ inp.cells →
      ((∃ k', (k', some t.cell) ∈ out.cells) ↔ t ∉ inp.selected f.cells) ∧
      (t ∉ inp.selected f.cells → out.HasCell t (inp.dataAt k)) := by
  intro k t hk
  have hn : Scheme.sqrt3.Needs inp := ⟨hv, by simp, by simp⟩
  have hl : Scheme.sqrt3 = .loop ∨ Scheme.sqrt3 = .butterfly → lib.Lawful := by simp
  have ht : t ∈ inp.tris := hv.mem_tris.2 ⟨k, hk⟩
  have key : t ∉ inp.selected f.cells → out.HasCell t (inp.dataAt k) := by
    intro hf
    obtain ⟨s, h1, -⟩ := iter_induct (cosn := cosn) (f := f) hl (fun m sel => m.HasCell t (inp.dataAt k) ∧ t ∉ m.selected sel)
      (fun m out sel f' hm hsel _ hmax h hI => sqrt3_far hm.valid (f := Filt.new.setCells sel) hsel (hmax rfl) h hI.1 hI.2)
      hn hsel hid ⟨⟨k, hk, rfl⟩, hf⟩ h
    exact h1
  refine ⟨⟨fun hin => ?_, fun hf => ?_⟩, key⟩
  · intro hf
    have key2 := iter_induct_first (cosn := cosn) (f := f) hl
      (fun m _ => (∀ k', (k', some t.cell) ∉ m.cells) ∧ inp.points.length ≤ m.points.length) ?_ ?_ hn hsel hid h
    · obtain ⟨k', hk'⟩ := hin
      obtain ⟨s, h1, -⟩ := key2
      exact h1 k' hk'
    · intro out f' hmax h
      refine ⟨fun k' hk' => ?_, cellUpdate_more_points (f := Filt.new.setCells f.cells) hn hsel hmax h⟩
      exact (sqrt3_old hv (f := Filt.new.setCells f.cells) hsel (hmax rfl) h (fun v hv' => hv.verts_lt ht hv')
        ((C13_sqrt3_valid hv (f := Filt.new.setCells f.cells) hsel (hmax rfl) h).1.mem_tris.2 ⟨k', hk'⟩)).2 hf
    · intro m out sel f' hm hsel _ hmax h hI
      refine ⟨fun k' hk' => ?_, Nat.le_trans hI.2 (cellUpdate_more_points (f := Filt.new.setCells sel) hm hsel hmax h)⟩
      have := (sqrt3_old hm.valid (f := Filt.new.setCells sel) hsel (hmax rfl) h
        (fun v hv' => Nat.lt_of_lt_of_le (hv.verts_lt ht hv') hI.2)
        ((C13_sqrt3_valid hm.valid (f := Filt.new.setCells sel) hsel (hmax rfl) h).1.mem_tris.2 ⟨k', hk'⟩)).1
      obtain ⟨k2, hk2⟩ := hm.valid.mem_tris.1 this
      exact hI.1 k2 hk2
  · obtain ⟨k', hk', -⟩ := key hf
    exact ⟨k', hk'⟩

example (out : Mesh Q3 Nat) (h : (iterUpdate .sqrt3 someLib cos0 ⟨[1], 3, []⟩ patchMesh).1 = .ok out) :
    out.HasCell (0, 1, 2) (some 7) :=
  ((C57_far_cells_kept_sqrt3_iterative patchMesh_ok.1 (show patchMesh.SelOK [1] by unfold Mesh.SelOK; decide)
    (fun _ => by decide) h) 0 (0, 1, 2) (by decide)).2 (by decide)

/-- C57, the edge filters: exactly the cells without a listed edge are in the output as they are, with their data. -/
theorem C57_far_cells_kept_edge {sch : EdgeScheme} {f f' : Filt} {inp out : Mesh P D} (hn : sch.toScheme.Needs inp)
    (hsel : inp.EdgeSelOK f.edgeSel) (h : edgeUpdate sch lib cosn f inp = (.ok out, f')) :
    ∀ k (t : Tri), (k, some t.cell) ∈ inp.cells →
      (t ∈ out.tris ↔ ∀ e ∈ inp.selectedEdges f.edgeSel, e ∉ t.darts ∧ e.sym ∉ t.darts) ∧
      ((∀ e ∈ inp.selectedEdges f.edgeSel, e ∉ t.darts ∧ e.sym ∉ t.darts) → out.HasCell t (inp.dataAt k)) := by
  intro k t hk
  have ht : t ∈ inp.tris := hn.valid.mem_tris.2 ⟨k, hk⟩
  have R := edgeUpdate_result hn hsel h
  have hov := R.valid hn.valid
  have hold : ∀ e m, inp.listPoint f.edgeSel e = some m → m ∉ t.verts := fun e m hm => R.label.fresh e m hm t ht
  have hiff : ∀ e, (inp.listPoint f.edgeSel e).isSome ↔ e ∈ inp.selectedEdges f.edgeSel ∨ e.sym ∈ inp.selectedEdges f.edgeSel :=
    fun e => lastLabel_isSome _ _ e
  have key : (∀ e ∈ inp.selectedEdges f.edgeSel, e ∉ t.darts ∧ e.sym ∉ t.darts) → out.HasCell t (inp.dataAt k) := by
    intro hf
    have hnone : ∀ e ∈ t.darts, inp.listPoint f.edgeSel e = none := by
      intro e he
      by_contra hx
      rcases (hiff e).1 (Option.isSome_iff_ne_none.2 hx) with h1 | h1
      · exact (hf _ h1).1 he
      · exact (hf _ h1).2 (by rw [Edge.sym_sym]; exact he)
    have hto : t ∈ out.tris := by
      rw [R.tris]
      exact List.mem_flatMap.2 ⟨t, ht, by rw [children_of_none hnone]; exact List.mem_singleton_self t⟩
    obtain ⟨k', hk'⟩ := hov.mem_tris.1 hto
    obtain ⟨x, hx, hxt⟩ := R.item_of_cell hk'
    obtain ⟨t', ht', hd, _⟩ := mem_childItems.1 (List.mem_of_getElem? hx)
    rw [hxt] at hd
    have := child_old hd hold
    subst this
    refine ⟨k', hk', ?_⟩
    rw [R.data k', hx, hn.valid.id_unique hk ht']
    rfl
  refine ⟨⟨fun h1 => ?_, fun hf => ?_⟩, key⟩
  · rw [R.tris] at h1
    obtain ⟨s, hs1, hs2⟩ := List.mem_flatMap.1 h1
    have heq := child_old hs2 hold
    subst heq
    have hno := child_self_none hs2 hold
    intro e he
    have k1 := (hiff e).2 (Or.inl he)
    have k2 := (hiff e.sym).2 (Or.inr (by rw [Edge.sym_sym]; exact he))
    exact ⟨fun hc => (by rw [hno _ hc] at k1; cases k1), fun hc => (by rw [hno _ hc] at k2; cases k2)⟩
  · obtain ⟨k', hk', -⟩ := key hf
    exact hov.mem_tris.2 ⟨k', hk'⟩

example (out : Mesh Q3 Nat) (f' : Filt)
    (h : edgeUpdate .loop someLib cos0 (Filt.new.setEdges [some (1, 0), none]) patchMesh = (.ok out, f')) :
    out.HasCell (2, 1, 4) (some 9) ∧ (0, 1, 2) ∉ out.tris := by
  have key := C57_far_cells_kept_edge (patchMesh_needs _) (f := Filt.new.setEdges [some (1, 0), none])
    (by intro e he; simp [Filt.setEdges] at he; subst he; unfold Mesh.IsEdge; decide) h
  refine ⟨(key 2 (2, 1, 4) (by decide)).2 (by decide), fun hc => ?_⟩
  have := (key 0 (0, 1, 2) (by decide)).1.1 hc
  revert this; decide

/-- C57 with C06: except with Loop, the corners of the kept cells are where they were. -/
theorem C57_far_corners_iterative {f : Iter} {inp out : Mesh P D} (hs : sch ≠ .loop) (hl : sch = .butterfly → lib.Lawful)
    (hn : sch.Needs inp) (hsel : inp.SelOK f.cells) (hid : sch.IdsLeft (max 1 f.levels) inp f.cells)
    (h : (iterUpdate sch lib cosn f inp).1 = .ok out) {t : Tri} (ht : t ∈ inp.tris) (hf : t.Apart (inp.selected f.cells)) :
    (∃ k', (k', some t.cell) ∈ out.cells) ∧ ∀ v ∈ t.verts, ∀ p, inp.pos v = some p → out.pos v = some p := by
  obtain ⟨k, hk⟩ := hn.valid.mem_tris.1 ht
  refine ⟨?_, fun v _ p hp => C06_original_points_kept_iterative hs hl hn hsel hid h v p hp⟩
  by_cases h3 : sch = .sqrt3
  · subst h3
    exact ((C57_far_cells_kept_sqrt3_iterative hn.valid hsel hid h) k t hk).1.2 (Tri.apart_self hf)
  · exact ((C57_far_cells_kept_iterative h3 (fun hc => hc.elim (fun hc => absurd hc hs) hl) hn hsel h) k t hk).1.2 hf

example (out : Mesh Q3 Nat) (h : (iterUpdate .linear someLib cos0 ⟨[1], 7, []⟩ patchMesh).1 = .ok out) :
    out.pos 4 = some (4, 4, 1) :=
  (C57_far_corners_iterative (by decide) (fun h => by cases h) (patchMesh_needs _)
    (show patchMesh.SelOK [1] by unfold Mesh.SelOK; decide) (fun h => by cases h) h (t := (2, 1, 4)) (by decide)
    (by unfold Tri.Apart; decide)).2 4 (by decide) _ (by decide)

end Verif
