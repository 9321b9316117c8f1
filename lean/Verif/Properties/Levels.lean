import Verif.Proofs.Levels
import Verif.Properties.Sqrt3
import Verif.Properties.Topology
import Verif.Properties.Points
/-
C06, C14, C15, C17 and C18 for any number of levels.
-/
namespace Verif
set_option linter.unusedSectionVars false
variable {K P D : Type} [Field K] [Zero P] [Add P] [SMul K P] {lib : QELib} {cosn : Nat → K} {sch : Scheme} {f : Iter}
  {inp out : Mesh P D}

/-- C06, any number of levels. -/
theorem C06_original_points_kept_iterative (hs : sch ≠ .loop) (hl : sch = .butterfly → lib.Lawful) (hn : sch.Needs inp)
    (hsel : inp.SelOK f.cells) (hid : sch.IdsLeft (max 1 f.levels) inp f.cells)
    (h : (iterUpdate sch lib cosn f inp).1 = .ok out) : ∀ v p, inp.pos v = some p → out.pos v = some p := by
  refine (iter_induct (lib := lib) (cosn := cosn) (fun hc => hc.elim (fun hc => absurd hc hs) hl)
    (fun m _ => ∀ v p, inp.pos v = some p → m.pos v = some p) ?_ hn hsel hid (fun _ _ h => h) h).elim fun _ h => h
  intro m out sel f' hm _ _ _ h hI v p hp
  exact C06_original_points_kept hs hm.valid.points_dense h v p (hI v p hp)

/-- C14, any number of levels: each output cell carries the data of an input cell, and there are no other data. -/
theorem C14_cell_data_inherited_iterative (hl : sch = .loop ∨ sch = .butterfly → lib.Lawful) (hn : sch.Needs inp)
    (hsel : inp.SelOK f.cells) (hid : sch.IdsLeft (max 1 f.levels) inp f.cells)
    (h : (iterUpdate sch lib cosn f inp).1 = .ok out) :
    (∀ k (d : Tri), (k, some d.cell) ∈ out.cells → ∃ j t, (j, some (Tri.cell t)) ∈ inp.cells ∧ out.dataAt k = inp.dataAt j) ∧
    ∀ k, k ∉ out.cells.map Prod.fst → out.dataAt k = none := by
  have step : ∀ (m out : Mesh P D) (f f' : Filt), sch.Needs m → m.SelOK f.cells →
      (sch = .sqrt3 → m.points.length + (m.selected f.cells).length ≤ idMax) →
      cellUpdate sch lib cosn f m = (.ok out, f') →
      (∀ k (d : Tri), (k, some d.cell) ∈ out.cells → ∃ j t, (j, some (Tri.cell t)) ∈ m.cells ∧ out.dataAt k = m.dataAt j) ∧
      ∀ k, k ∉ out.cells.map Prod.fst → out.dataAt k = none := by
    intro m out f f' hm hsel hmax h
    by_cases hs : sch = .sqrt3
    · subst hs
      obtain ⟨h1, h2⟩ := C14_cell_data_inherited_sqrt3 hm.valid hsel (hmax rfl) h
      refine ⟨fun k d hk => ?_, h2⟩
      obtain ⟨j, t, h3, -, -, h4⟩ := h1 k d hk
      exact ⟨j, t, h3, h4⟩
    · obtain ⟨h1, h2⟩ := C14_cell_data_inherited hs hm hsel h
      refine ⟨fun k d hk => ?_, h2⟩
      obtain ⟨j, t, h3, -, h4⟩ := h1 k d hk
      exact ⟨j, t, h3, h4⟩
  refine (iter_induct_first (lib := lib) (cosn := cosn) hl (fun m _ =>
    (∀ k (d : Tri), (k, some d.cell) ∈ m.cells → ∃ j t, (j, some (Tri.cell t)) ∈ inp.cells ∧ m.dataAt k = inp.dataAt j) ∧
    ∀ k, k ∉ m.cells.map Prod.fst → m.dataAt k = none) ?_ ?_ hn hsel hid h).elim fun _ h => h
  · intro out f' hmax h
    exact step inp out (Filt.new.setCells f.cells) f' hn hsel hmax h
  · intro m out sel f' hm hsel _ hmax h hI
    obtain ⟨h1, h2⟩ := step m out (Filt.new.setCells sel) f' hm hsel hmax h
    refine ⟨fun k d hk => ?_, h2⟩
    obtain ⟨j, t, h3, h4⟩ := h1 k d hk
    obtain ⟨j', t', h5, h6⟩ := hI.1 j t h3
    exact ⟨j', t', h5, h4.trans h6⟩

/-- C15, any number of levels. -/
theorem C15_cell_data_complete_iterative (hl : sch = .loop ∨ sch = .butterfly → lib.Lawful) (hn : sch.Needs inp)
    (hsel : inp.SelOK f.cells) (hid : sch.IdsLeft (max 1 f.levels) inp f.cells)
    (hd : ∀ k ∈ inp.cells.map Prod.fst, (inp.dataAt k).isSome) (h : (iterUpdate sch lib cosn f inp).1 = .ok out) :
    (∀ k ∈ out.cells.map Prod.fst, (out.dataAt k).isSome) ∧
    (out.cellData.getD []).map Prod.fst = out.cells.map Prod.fst := by
  have step : ∀ (m out : Mesh P D) (f f' : Filt), sch.Needs m → m.SelOK f.cells →
      (sch = .sqrt3 → m.points.length + (m.selected f.cells).length ≤ idMax) →
      (∀ k ∈ m.cells.map Prod.fst, (m.dataAt k).isSome) → cellUpdate sch lib cosn f m = (.ok out, f') →
      (∀ k ∈ out.cells.map Prod.fst, (out.dataAt k).isSome) ∧
      (out.cellData.getD []).map Prod.fst = out.cells.map Prod.fst := by
    intro m out f f' hm hsel hmax hd h
    by_cases hs : sch = .sqrt3
    · subst hs
      exact C15_cell_data_complete_sqrt3 hm.valid hsel (hmax rfl) hd h
    · exact C15_cell_data_complete hs hm hsel hd h
  refine (iter_induct_first (lib := lib) (cosn := cosn) hl (fun m _ => (∀ k ∈ m.cells.map Prod.fst, (m.dataAt k).isSome) ∧
    (m.cellData.getD []).map Prod.fst = m.cells.map Prod.fst) ?_ ?_ hn hsel hid h).elim fun _ h => h
  · intro out f' hmax h
    exact step inp out (Filt.new.setCells f.cells) f' hn hsel hmax hd h
  · intro m out sel f' hm hsel _ hmax h hI
    exact step m out (Filt.new.setCells sel) f' hm hsel hmax hI.1 h

/-- C17, any number of levels (SquareThree: no cell listed twice). -/
theorem C17_euler_preserved_iterative (hl : sch = .loop ∨ sch = .butterfly → lib.Lawful) (hn : sch.Needs inp)
    (hsel : inp.SelOK f.cells) (hnd : sch = .sqrt3 → f.cells.Nodup) (hid : sch.IdsLeft (max 1 f.levels) inp f.cells)
    (h : (iterUpdate sch lib cosn f inp).1 = .ok out) : out.euler = inp.euler := by
  refine (iter_induct (lib := lib) (cosn := cosn) hl (fun m sel => m.euler = inp.euler ∧ (sch = .sqrt3 → sel.Nodup)) ?_
    hn hsel hid ⟨rfl, hnd⟩ h).elim fun _ h => h.1
  rintro m out sel f' hm hsel _ hmax h ⟨h1, h2⟩
  by_cases hs : sch = .sqrt3
  · subst hs
    refine ⟨(C17_euler_preserved_sqrt3 hm.valid (f := Filt.new.setCells sel) hsel (hmax rfl) (h2 rfl) h).trans h1, fun _ => ?_⟩
    have := C16_selection_after_run_sqrt3 hm.valid (f := Filt.new.setCells sel) hsel (hmax rfl) h
    by_cases hne : sel = []
    · rw [this.1 hne]; exact List.nodup_nil
    · exact (this.2 hne).2.1
  · exact ⟨(C17_euler_preserved hs hm (f := Filt.new.setCells sel) hsel h).trans h1, fun hc => absurd hc hs⟩

/-- C18, any number of levels: closed exactly if the input is. -/
theorem C18_closed_iterative (hl : sch = .loop ∨ sch = .butterfly → lib.Lawful) (hn : sch.Needs inp)
    (hsel : inp.SelOK f.cells) (hid : sch.IdsLeft (max 1 f.levels) inp f.cells)
    (h : (iterUpdate sch lib cosn f inp).1 = .ok out) : inp.Closed ↔ out.Closed := by
  refine (iter_induct (lib := lib) (cosn := cosn) hl (fun m _ => inp.Closed ↔ m.Closed) ?_ hn hsel hid Iff.rfl h).elim fun _ h => h
  intro m out sel f' hm hsel _ hmax h h1
  by_cases hs : sch = .sqrt3
  · subst hs
    exact h1.trans (C18_boundary_preserved_sqrt3 hm.valid (f := Filt.new.setCells sel) hsel (hmax rfl) h).2
  · exact h1.trans (C18_boundary_preserved hs hm (f := Filt.new.setCells sel) hsel h).2

example (n : Nat) (out : Mesh Q3 Nat) (h : (iterUpdate .butterfly someLib cos0 ⟨[1, 3], n, []⟩ patchMesh).1 = .ok out) :
    out.pos 4 = patchMesh.pos 4 ∧ out.euler = 1 ∧ ¬ out.Closed := by
  have hid : Scheme.butterfly.IdsLeft (max 1 n) patchMesh [1, 3] := fun hc => by cases hc
  have hl : Scheme.butterfly = .loop ∨ Scheme.butterfly = .butterfly → someLib.Lawful := fun _ => someLib_lawful
  refine ⟨?_, ?_, ?_⟩
  · exact C06_original_points_kept_iterative (f := ⟨[1, 3], n, []⟩) (by decide) (fun _ => someLib_lawful) (patchMesh_needs _)
      patchMesh_sel hid h 4 _ rfl
  · exact (C17_euler_preserved_iterative (f := ⟨[1, 3], n, []⟩) hl (patchMesh_needs _) patchMesh_sel (fun hc => by cases hc)
      hid h).trans (by decide)
  · rw [← C18_closed_iterative (f := ⟨[1, 3], n, []⟩) hl (patchMesh_needs _) patchMesh_sel hid h]
    intro hc
    refine hc (0, 3) ⟨?_, ?_⟩ <;> rw [patchMesh_ok.2.2.2] <;> decide

example (n : Nat) (out : Mesh Q3 Nat) (h : (iterUpdate .loop someLib cos0 ⟨[2, 0, 2], n, []⟩ tetraMesh).1 = .ok out) :
    (∀ k ∈ out.cells.map Prod.fst, (out.dataAt k).isSome) ∧
    ∀ k (d : Tri), (k, some d.cell) ∈ out.cells → ∃ j, j < 4 ∧ out.dataAt k = some (10 + j) := by
  have hid : Scheme.loop.IdsLeft (max 1 n) tetraMesh [2, 0, 2] := fun hc => by cases hc
  have hl : Scheme.loop = .loop ∨ Scheme.loop = .butterfly → someLib.Lawful := fun _ => someLib_lawful
  refine ⟨(C15_cell_data_complete_iterative (f := ⟨[2, 0, 2], n, []⟩) hl (tetraMesh_needs _) tetraMesh_sel hid (by decide) h).1,
    fun k d hk => ?_⟩
  obtain ⟨j, t, h1, h2⟩ := (C14_cell_data_inherited_iterative (f := ⟨[2, 0, 2], n, []⟩) hl (tetraMesh_needs _) tetraMesh_sel hid
    h).1 k d hk
  have hj : ∀ j ∈ tetraMesh.cells.map Prod.fst, j < 4 ∧ tetraMesh.dataAt j = some (10 + j) := by decide
  exact ⟨j, (hj j (List.mem_map.2 ⟨_, h1, rfl⟩)).1, h2.trans (hj j (List.mem_map.2 ⟨_, h1, rfl⟩)).2⟩

end Verif
