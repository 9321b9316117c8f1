import Verif.Proofs.Topology
import Verif.Spec.Topology
import Verif.Properties.Edge
/-
C17, C18 for the face-split filters (SquareThree: see `Verif.Properties.Sqrt3`).
-/
namespace Verif
variable {K P D : Type} [Field K] [Zero P] [Add P] [SMul K P]
variable {sch : Scheme} {lib : QELib} {cosn : Nat → K} {f f' : Filt} {inp out : Mesh P D}

/-- C17. A face-split cell filter preserves points - edges + cells. -/
theorem C17_euler_preserved (hs : sch ≠ .sqrt3) (hn : sch.Needs inp) (hsel : inp.SelOK f.cells)
    (h : cellUpdate sch lib cosn f inp = (.ok out, f')) : out.euler = inp.euler := by
  obtain ⟨R, -⟩ := cellUpdate_result hs hn hsel h
  refine R.euler hn.valid (pairwise_edgeList (inp.selected f.cells)) (by simp) ?_ ?_
  · intro e
    rw [edgePoint_isSome, mem_edgeList]
  · exact fun e he => selected_isEdge hn.valid he

example (out : Mesh Q3 Nat) (f' : Filt) (h : cellUpdate .linear someLib cos0 (usedFilt [1, 3]) patchMesh = (.ok out, f')) :
    out.euler = 1 :=
  (C17_euler_preserved (by decide) (patchMesh_needs _) patchMesh_sel h).trans (by decide)

/-- C17, edge filters: the same if no edge is listed twice. -/
theorem C17_euler_preserved_edge {sch : EdgeScheme} (hn : sch.toScheme.Needs inp) (hsel : inp.EdgeSelOK f.edgeSel)
    (hd : DistinctEdges (inp.selectedEdges f.edgeSel)) (h : edgeUpdate sch lib cosn f inp = (.ok out, f')) :
    out.euler = inp.euler :=
  (edgeUpdate_result hn hsel h).euler hn.valid hd (by simp)
    (lastLabel_isSome inp.points.length (inp.selectedEdges f.edgeSel)) fun _ => selectedEdges_isEdge hsel

example (out : Mesh Q3 Nat) (f' : Filt) (h : edgeUpdate .loop someLib cos0
    (Filt.new.setEdges [some (1, 0), none, some (4, 2)]) patchMesh = (.ok out, f')) : out.euler = 1 :=
  (C17_euler_preserved_edge (sch := .loop) (patchMesh_needs _) patchMesh_edges
    (by unfold DistinctEdges Mesh.selectedEdges Filt.setEdges; decide) h).trans (by decide)

theorem isPiece_iff {μ : Edge → Option PId} {e : Edge} {p q : PId} : IsPiece μ e (p, q) ↔ OuterOf μ e p q := by
  rw [← mem_pieces]
  unfold IsPiece Edge.pieces
  rcases μ e with _ | m <;> simp

omit [Zero P] [Add P] in
theorem FaceSplitResult.boundary {inp out : Mesh P D} {u : Bool} {μ : Edge → Option PId} {pts : List P}
    (R : FaceSplitResult lib inp out f f' u μ pts) (hv : inp.Valid) :
    (∀ e', out.IsBoundary e' ↔ ∃ e, inp.IsBoundary e ∧ IsPiece μ e e') ∧
    (inp.Closed ↔ out.Closed) := by
  have hb : ∀ e', out.IsBoundary e' ↔ ∃ e, inp.IsBoundary e ∧ IsPiece μ e e' := by
    rintro ⟨p, q⟩
    unfold Mesh.IsBoundary
    rw [← mem_boundaryOf, R.tris, boundary_children hv.good R.label]
    constructor
    · rintro ⟨e, he, ho⟩; exact ⟨e, mem_boundaryOf.1 he, isPiece_iff.2 ho⟩
    · rintro ⟨e, he, ho⟩; exact ⟨e, mem_boundaryOf.2 he, isPiece_iff.1 ho⟩
  refine ⟨hb, ?_, ?_⟩
  · intro hc e' he'
    obtain ⟨e, he, _⟩ := (hb e').1 he'
    exact hc e he
  · intro hc e he
    rcases hm : μ e with _ | m
    · exact hc e ((hb e).2 ⟨e, he, Or.inl ⟨hm, rfl⟩⟩)
    · exact hc (e.1, m) ((hb _).2 ⟨e, he, Or.inr ⟨m, hm, Or.inl rfl⟩⟩)

/-- C18. The boundary edges of the output are the boundary edges of the input, those that received a point being replaced
by their two halves; so the output is closed exactly if the input is. -/
theorem C18_boundary_preserved (hs : sch ≠ .sqrt3) (hn : sch.Needs inp) (hsel : inp.SelOK f.cells)
    (h : cellUpdate sch lib cosn f inp = (.ok out, f')) :
    (∀ e', out.IsBoundary e' ↔ ∃ e, inp.IsBoundary e ∧ IsPiece (inp.edgePoint f.cells) e e') ∧
    (inp.Closed ↔ out.Closed) :=
  (cellUpdate_result hs hn hsel h).1.boundary hn.valid

example (out : Mesh Q3 Nat) (f' : Filt) (h : cellUpdate .loop someLib cos0 (usedFilt [2, 0, 2]) tetraMesh = (.ok out, f')) :
    out.Closed := by
  refine (C18_boundary_preserved (by decide) (tetraMesh_needs _) tetraMesh_sel h).2.1 ?_
  rintro e ⟨h1, h2⟩
  have : ∀ e ∈ dartsOf tetra, e.sym ∈ dartsOf tetra := by decide
  rw [tetraMesh_ok.2.2.2] at h1 h2
  exact h2 (this e h1)

example (out : Mesh Q3 Nat) (f' : Filt) (h : cellUpdate .linear someLib cos0 (usedFilt [1, 3]) patchMesh = (.ok out, f')) :
    ¬ out.Closed := by
  rw [← (C18_boundary_preserved (by decide) (patchMesh_needs _) patchMesh_sel h).2]
  intro hc
  refine hc (0, 3) ⟨?_, ?_⟩ <;> rw [patchMesh_ok.2.2.2] <;> decide

/-- C18, edge filters. -/
theorem C18_boundary_preserved_edge {sch : EdgeScheme} (hn : sch.toScheme.Needs inp) (hsel : inp.EdgeSelOK f.edgeSel)
    (h : edgeUpdate sch lib cosn f inp = (.ok out, f')) :
    (∀ e', out.IsBoundary e' ↔ ∃ e, inp.IsBoundary e ∧ IsPiece (inp.listPoint f.edgeSel) e e') ∧
    (inp.Closed ↔ out.Closed) :=
  (edgeUpdate_result hn hsel h).boundary hn.valid

example (out : Mesh Q3 Nat) (f' : Filt) (h : edgeUpdate .loop someLib cos0
    (Filt.new.setEdges [some (1, 0), none, some (4, 2)]) patchMesh = (.ok out, f')) : out.IsBoundary (4, 7) := by
  obtain ⟨h1, _⟩ := C18_boundary_preserved_edge (sch := .loop) (patchMesh_needs _) patchMesh_edges h
  refine (h1 _).2 ⟨(4, 2), ⟨?_, ?_⟩, ?_⟩
  · rw [patchMesh_ok.2.2.2]; decide
  · rw [patchMesh_ok.2.2.2]; decide
  · exact Or.inr ⟨7, by decide, Or.inl rfl⟩

end Verif
