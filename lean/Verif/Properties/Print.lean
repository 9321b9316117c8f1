import Verif.Spec.Print
import Verif.Properties.Local
import Verif.Properties.Iterative
import Std.Data.String.ToNat
/-
C86: what `Print` tells about a filter.
-/
namespace Verif
set_option linter.unusedSectionVars false
variable {K P D : Type} [Field K] [Zero P] [Add P] [SMul K P]
variable {sch : Scheme} {lib : QELib} {cosn : Nat → K} {f f' : Filt} {inp out : Mesh P D}

theorem onStream_sup (sup : List String) (p : Printed) :
    Printed.onStream (sup.map (Sink.given, ·) ++ p) = sup ++ Printed.onStream p := by
  unfold Printed.onStream
  rw [List.filterMap_append]
  congr 1
  induction sup with
  | nil => rfl
  | cons x sup ih => simp

theorem printCell_says (sup : List String) (indent : String) (f : Filt) :
    ((printCell sup indent f).SaysUniform sup indent ↔ f.uniform = true) ∧
    ((printCell sup indent f).SaysSelective sup indent ↔ f.uniform = false) := by
  unfold printCell Printed.SaysUniform Printed.SaysSelective
  rw [onStream_sup]
  constructor
  · simp only [Printed.onStream, List.filterMap_cons, List.filterMap_nil, if_true, List.append_cancel_left_eq,
      List.cons.injEq, and_true]
    rw [String.append_right_inj]
    cases f.uniform <;> simp [showBool]
  · simp only [Printed.onStream, List.filterMap_cons, List.filterMap_nil, if_true, List.append_cancel_left_eq,
      List.cons.injEq, and_true]
    rw [String.append_right_inj]
    cases f.uniform <;> simp [showBool]

/-- C86, cell filters: after an `Update()` of a valid mesh, `Print` tells whether this `Update` subdivided everything, and
whether the next one will if the selection is not changed in between. -/
theorem C86_flag_after_run_partial (hs : sch ≠ .sqrt3) (hn : sch.Needs inp) (hsel : inp.SelOK f.cells)
    (h : cellUpdate sch lib cosn f inp = (.ok out, f')) (sup : List String) (indent : String) :
    ((printCell sup indent f').SaysUniform sup indent ↔ f.cells = []) ∧
    ((printCell sup indent f').SaysSelective sup indent ↔ f.cells ≠ []) ∧
    ((printCell sup indent f').SaysUniform sup indent ↔ f'.cells = []) := by
  obtain ⟨R, -⟩ := cellUpdate_result hs hn hsel h
  obtain ⟨h1, h2⟩ := C16_selection_after_run hs hn hsel h
  have hu : f'.uniform = f.cells.isEmpty := by rw [R.filt]
  rw [(printCell_says sup indent f').1, (printCell_says sup indent f').2, hu]
  refine ⟨List.isEmpty_iff, by simp, ?_⟩
  rw [List.isEmpty_iff]
  exact ⟨h1, fun h3 => by_contra fun hc => (h2 hc).1 h3⟩

/-- C86, SquareThree: the same. -/
theorem C86_flag_after_run_sqrt3_partial (hv : inp.Valid) (hsel : inp.SelOK f.cells)
    (hmax : inp.points.length + (inp.selected f.cells).length ≤ idMax)
    (h : cellUpdate .sqrt3 lib cosn f inp = (.ok out, f')) (sup : List String) (indent : String) :
    ((printCell sup indent f').SaysUniform sup indent ↔ f.cells = []) ∧
    ((printCell sup indent f').SaysSelective sup indent ↔ f.cells ≠ []) ∧
    ((printCell sup indent f').SaysUniform sup indent ↔ f'.cells = []) := by
  have R := sqrt3Update_result hv hsel hmax h
  obtain ⟨h1, h2⟩ := C16_selection_after_run_sqrt3 hv hsel hmax h
  rw [(printCell_says sup indent f').1, (printCell_says sup indent f').2, R.uniform]
  refine ⟨List.isEmpty_iff, by simp, ?_⟩
  rw [List.isEmpty_iff]
  exact ⟨h1, fun h3 => by_contra fun hc => (h2 hc).1 h3⟩

/-- C86, edge filters: the same about the list of edges. -/
theorem C86_flag_after_run_edge_partial {sch : EdgeScheme} (hn : sch.toScheme.Needs inp) (hsel : inp.EdgeSelOK f.edgeSel)
    (h : edgeUpdate sch lib cosn f inp = (.ok out, f')) (sup : List String) (indent : String) :
    ((printEdge sup indent f').SaysUniform sup indent ↔ f.edgeSel = []) ∧
    ((printEdge sup indent f').SaysSelective sup indent ↔ f.edgeSel ≠ []) ∧
    ((printEdge sup indent f').SaysUniform sup indent ↔ f'.edgeSel = []) := by
  have R := edgeUpdate_result hn hsel h
  have hu : f'.uniform = f.edgeSel.isEmpty := by rw [R.filt]
  have he : f'.edgeSel = f.edgeSel := by rw [R.filt]
  unfold printEdge
  rw [(printCell_says sup indent f').1, (printCell_says sup indent f').2, hu, he]
  exact ⟨List.isEmpty_iff, by simp, List.isEmpty_iff⟩

example (out : Mesh Q3 Nat) (f' : Filt) (h : cellUpdate .loop someLib cos0 (usedFilt [1, 3]) patchMesh = (.ok out, f')) :
    (printCell ["Loop"] "  " f').SaysSelective ["Loop"] "  " :=
  (C86_flag_after_run_partial (by decide) (patchMesh_needs _) patchMesh_sel h _ _).2.1.2 (by decide)

example (out : Mesh Q3 Nat) (f' : Filt) (h : cellUpdate .sqrt3 someLib cos0 (usedFilt []) patchMesh = (.ok out, f')) :
    (printCell ["SquareThree"] "  " f').SaysUniform ["SquareThree"] "  " :=
  (C86_flag_after_run_sqrt3_partial patchMesh_ok.1 (selOK_nil _) (by decide) h _ _).1.2 rfl

example (out : Mesh Q3 Nat) (f' : Filt) (h : edgeUpdate .loop someLib cos0
    (Filt.new.setEdges [some (1, 0), none, some (4, 2)]) patchMesh = (.ok out, f')) :
    (printEdge ["LoopEdge"] "" f').SaysSelective ["LoopEdge"] "" :=
  (C86_flag_after_run_edge_partial (sch := .loop) (patchMesh_needs _) patchMesh_edges h _ _).2.1.2 (by decide)

/-- C86 fails before the first run and after the selection is changed: whatever cells are selected, `Print` shows what it
showed before, so an object can say that it subdivides uniformly and then leave triangles as they are. -/
theorem C86_before_run_refuted :
    (∀ (sup : List String) (indent : String) (f : Filt) (l : List CId),
      printCell sup indent (f.setCells l) = printCell sup indent f) ∧
    (∀ (sup : List String) (indent : String), ((printCell sup indent (Filt.new.setCells [1])).SaysUniform sup indent) ∧
      ∃ (out : Mesh Q3 Nat) (f' : Filt), cellUpdate .linear someLib cos0 (Filt.new.setCells [1]) patchMesh = (.ok out, f') ∧
        (2, 1, 4) ∈ patchMesh.tris ∧ (2, 1, 4) ∈ out.tris) := by
  refine ⟨fun _ _ _ _ => rfl, fun sup indent => ⟨(printCell_says sup indent _).1.2 rfl, ?_⟩⟩
  have hsel : patchMesh.SelOK [1] := by unfold Mesh.SelOK; decide
  obtain ⟨out, f', h, -⟩ := C01_face_split_completes (sch := .linear) (lib := someLib) (cosn := cos0) (f := Filt.new.setCells [1])
    (by decide) (patchMesh_needs _) hsel
  refine ⟨out, f', h, by decide, ?_⟩
  exact ((C57_far_cells_kept (by decide) (patchMesh_needs _) (f := Filt.new.setCells [1]) hsel h) 2 (2, 1, 4) (by decide)).1.2
    (by unfold Tri.Apart; decide)

/-- C86 fails for the iterative filter: the number of levels is not on the stream that `Print` was given, so that filters with
different numbers of levels look the same there, and every `Print` writes a line to the console. -/
theorem C86_levels_refuted (sup : List String) (indent : String) (i j : Iter) :
    (printIter sup indent i).onStream = (printIter sup indent j).onStream ∧
    ∃ s, (Sink.console, s) ∈ printIter sup indent i := by
  refine ⟨?_, _, List.mem_append_right _ (List.mem_singleton.2 rfl)⟩
  unfold printIter
  rw [onStream_sup, onStream_sup]
  rfl

/-- C86, the number of levels on the console: objects that print the same have been given the same number of levels, hence give
the same output for the same selection. -/
theorem C86_levels_on_console_partial {sup : List String} {indent : String} {i j : Iter}
    (h : printIter sup indent i = printIter sup indent j) (hc : i.cells = j.cells) (lib : QELib) (cosn : Nat → K)
    (inp : Mesh P D) : i.levels = j.levels ∧ (iterUpdate sch lib cosn i inp).1 = (iterUpdate sch lib cosn j inp).1 := by
  have h1 : i.levels = j.levels := by
    unfold printIter at h
    simp only [List.append_cancel_left_eq, List.cons.injEq, Prod.mk.injEq, true_and, and_true] at h
    rw [String.append_right_inj, String.append_right_inj] at h
    exact Nat.repr_injective h
  refine ⟨h1, ?_⟩
  unfold iterUpdate
  rw [h1, hc]

/-- C86, the other filters write everything to the stream they are given; of a conditional filter nothing but what the base
classes write, so that neither its criterion nor its inner filter shows. -/
theorem C86_streams_partial (sup : List String) (indent : String) (f : Filt) {S ι : Type} (c : Cond S ι) :
    (∀ l ∈ printCell sup indent f ++ printEdge sup indent f ++ printCond sup indent c, l.1 = .given) ∧
    (printCond sup indent c).onStream = sup := by
  constructor
  · intro l hl
    simp only [printCell, printEdge, printCond, List.mem_append, List.mem_map, List.mem_singleton] at hl
    rcases hl with ((⟨_, _, rfl⟩ | rfl) | (⟨_, _, rfl⟩ | rfl)) | ⟨_, _, rfl⟩ <;> rfl
  · have := onStream_sup sup []
    rwa [List.append_nil, show Printed.onStream [] = [] from rfl, List.append_nil] at this

example : (Sink.given, "  Is Uniform Subdivision: 0") ∈ printCell [] "  " (usedFilt [1]) ∧
    (printCond ["Conditional"] "  " (⟨usedFilt [1], [7]⟩ : Cond Filt CId)).onStream = ["Conditional"] :=
  ⟨by decide, (C86_streams_partial ["Conditional"] "  " (usedFilt [1]) _).2⟩

example : (printIter ["Iterative"] "  " (Iter.new.setLevels 2)).onStream = (printIter ["Iterative"] "  " (Iter.new.setLevels 5)).onStream ∧
    printIter ["Iterative"] "  " (Iter.new.setLevels 2) ≠ printIter ["Iterative"] "  " (Iter.new.setLevels 5) :=
  ⟨(C86_levels_refuted _ _ _ _).1, fun h => absurd
    (C86_levels_on_console_partial (K := ℚ) (P := Q3) (D := Nat) (sch := .linear) h rfl someLib cos0 patchMesh).1 (by decide)⟩

end Verif
