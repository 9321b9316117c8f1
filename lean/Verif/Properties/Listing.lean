import Verif.Proofs.Pieces
import Verif.Properties.Levels
import Verif.Properties.Numbering
import Verif.Properties.EdgeRuns
/-
C58: the output depends on the surface, not on how the mesh lists it.
-/
namespace Verif
set_option linter.unusedSectionVars false
variable {K P D : Type} [Field K] [AddCommGroup P] [Module K P]
variable {lib lib' : QELib} {cosn : Nat → K} {ρ : PId → PId} {m m' out out' : Mesh P D} {f f' g g' : Filt}

/-- C58. Two meshes are listings of the same surface: point ids, cell ids and the order of the cells may differ, and a
cell may be listed from another corner on.  Two filter objects select the same triangles.  Then the outputs are listings of
the same surface, and the same triangles are selected for the next run.  This holds if the cells of which exactly two edges
are split begin at corresponding corners; that it can fail otherwise is `C58_first_corner_refuted`.  (Butterfly: closed
meshes, see C51.  Loop: objects that smooth all points, see C42.) -/
theorem C58_listing_partial {sch : Scheme} (hs : sch ≠ .sqrt3) (R : SameSurface ρ m m') (hn : sch.Needs m)
    (hn' : sch.Needs m') (hc : sch = .butterfly → m.Closed) (hl : sch = .loop → f.uniform = true ∧ g.uniform = true)
    (hsel : m.SelOK f.cells) (hsel' : m'.SelOK g.cells) (S : SameSelection ρ m f.cells m' g.cells)
    (hrot : ∀ t ∈ m.tris, (t.sharedWith (m.selected f.cells)).length = 2 → t.rename ρ ∈ m'.tris)
    (h : cellUpdate sch lib cosn f m = (.ok out, f')) (h' : cellUpdate sch lib' cosn g m' = (.ok out', g')) :
    ∃ ρ', (∀ v, v < m.points.length → ρ' v = ρ v) ∧ SameSurface ρ' out out' ∧
      SameSelection ρ' out f'.cells out' g'.cells := by
  obtain ⟨ρ', h1, h2, h3, -, h5⟩ := cellUpdate_listing hs R.piece hn hn' hc hl hsel hsel' S hrot h h'
  refine ⟨ρ', h1, h2.whole fun d hd => ?_, h3⟩
  rw [(cellUpdate_result hs hn' hsel' h').1.tris] at hd
  obtain ⟨t, ht, hd⟩ := List.mem_flatMap.1 hd
  exact (h5 t ht d hd).2 (R.inPiece ht)

theorem selected_all (R : SameSurface ρ m m') : SameSelection ρ m [] m' [] := fun x y z h =>
  ⟨fun _ => h, fun _ => R.tri x y z h⟩

/-- C58, uniform subdivision: without a selection the corner at which a cell begins does not matter. -/
theorem C58_listing_uniform {sch : Scheme} (hs : sch ≠ .sqrt3) (R : SameSurface ρ m m') (hn : sch.Needs m)
    (hn' : sch.Needs m') (hc : sch = .butterfly → m.Closed) (hl : sch = .loop → f.uniform = true ∧ g.uniform = true)
    (hf : f.cells = []) (hg : g.cells = [])
    (h : cellUpdate sch lib cosn f m = (.ok out, f')) (h' : cellUpdate sch lib' cosn g m' = (.ok out', g')) :
    ∃ ρ', (∀ v, v < m.points.length → ρ' v = ρ v) ∧ SameSurface ρ' out out' := by
  obtain ⟨ρ', h1, h2, -⟩ := C58_listing_partial hs R hn hn' hc hl (by rw [hf]; exact selOK_nil _)
    (by rw [hg]; exact selOK_nil _) (by rw [hf, hg]; exact selected_all R)
    (fun t ht h2 => by rw [hf, shared_all m ht] at h2; cases h2) h h'
  exact ⟨ρ', h1, h2⟩

/-- C58, SquareThree: with and without a selection the corner at which a cell begins does not matter. -/
theorem C58_listing_sqrt3 (R : SameSurface ρ m m') (hv : m.Valid) (hv' : m'.Valid)
    (hsel : m.SelOK f.cells) (hsel' : m'.SelOK g.cells) (S : SameSelection ρ m f.cells m' g.cells)
    (hmax : m.points.length + (m.selected f.cells).length ≤ idMax)
    (hmax' : m'.points.length + (m'.selected g.cells).length ≤ idMax)
    (h : cellUpdate .sqrt3 lib cosn f m = (.ok out, f')) (h' : cellUpdate .sqrt3 lib' cosn g m' = (.ok out', g')) :
    ∃ ρ', (∀ v, v < m.points.length → ρ' v = ρ v) ∧ SameSurface ρ' out out' ∧
      SameSelection ρ' out f'.cells out' g'.cells := by
  obtain ⟨ρ', h1, h2, h3, h4⟩ := sqrt3Update_listing R.piece hv hv' hsel hsel' S hmax hmax' h h'
  refine ⟨ρ', h1, h2.whole fun d hd => ?_, h3⟩
  obtain ⟨t, ht⟩ := sqrt3_from (sqrt3Update_result hv' hsel' hmax' h') hv' hd
  exact (h4 t d ht).2 (R.inPiece ht.1)

/-- C58, edge filters: the lists contain the same edges, in any order and direction.  As for the cell filters, cells of
which exactly two edges are split have to begin at corresponding corners. -/
theorem C58_listing_edge_partial {sch : EdgeScheme} (R : SameSurface ρ m m') (hn : sch.toScheme.Needs m)
    (hn' : sch.toScheme.Needs m') (hc : sch = .butterfly → m.Closed) (hsel : m.EdgeSelOK f.edgeSel)
    (hsel' : m'.EdgeSelOK g.edgeSel) (S : SameSplits ρ m f.edgeSel m' g.edgeSel)
    (hrot : ∀ t ∈ m.tris, (t.splitEdges (m.selectedEdges f.edgeSel)).length = 2 → t.rename ρ ∈ m'.tris)
    (h : edgeUpdate sch lib cosn f m = (.ok out, f')) (h' : edgeUpdate sch lib' cosn g m' = (.ok out', g')) :
    ∃ ρ', (∀ v, v < m.points.length → ρ' v = ρ v) ∧ SameSurface ρ' out out' := by
  obtain ⟨ρ', h1, h2, -, h5⟩ := edgeUpdate_listing R.piece hn hn' hc hsel hsel' S hrot h h'
  refine ⟨ρ', h1, h2.whole fun d hd => ?_⟩
  rw [(edgeUpdate_result hn' hsel' h').tris] at hd
  obtain ⟨t, ht, hd⟩ := List.mem_flatMap.1 hd
  exact (h5 t ht d hd).2 (R.inPiece ht)

/-- C58, edge filters without a list: all edges are split. -/
theorem C58_listing_edge_uniform {sch : EdgeScheme} (R : SameSurface ρ m m') (hn : sch.toScheme.Needs m)
    (hn' : sch.toScheme.Needs m') (hc : sch = .butterfly → m.Closed) (hf : f.edgeSel = []) (hg : g.edgeSel = [])
    (h : edgeUpdate sch lib cosn f m = (.ok out, f')) (h' : edgeUpdate sch lib' cosn g m' = (.ok out', g')) :
    ∃ ρ', (∀ v, v < m.points.length → ρ' v = ρ v) ∧ SameSurface ρ' out out' := by
  have hall : ∀ {m : Mesh P D} {e : Edge}, m.IsEdge e → (e ∈ m.selectedEdges [] ∨ e.sym ∈ m.selectedEdges []) := fun h => h
  refine C58_listing_edge_partial R hn hn' hc (by rw [hf]; intro e he; cases he) (by rw [hg]; intro e he; cases he) ?_ ?_ h h'
  · rw [hf, hg]
    intro e he
    exact ⟨fun _ => hall he, fun _ => hall (R.piece.isEdge hn'.valid hn.valid he)⟩
  · intro t ht h2
    rw [hf] at h2
    unfold Tri.splitEdges at h2
    rw [List.filter_eq_self.2 fun e he => decide_eq_true (hall (hn.valid.isEdge_of_dart (mem_dartsOf.2 ⟨t, ht, he⟩)))] at h2
    cases h2

/-- C58 for the iterative filter, any number of levels: SquareThree always; the other schemes if nothing is selected, or if
all cells begin at corresponding corners.  The filters complete. -/
theorem C58_listing_iterative_partial {sch : Scheme} (hlib : sch = .loop ∨ sch = .butterfly → lib.Lawful)
    (hlib' : sch = .loop ∨ sch = .butterfly → lib'.Lawful) (cosn : Nat → K) (R : SameSurface ρ m m') (hn : sch.Needs m)
    (hn' : sch.Needs m') (hc : sch = .butterfly → m.Closed) {f g : Iter} (hL : max 1 g.levels = max 1 f.levels)
    (hsel : m.SelOK f.cells) (hsel' : m'.SelOK g.cells) (S : SameSelection ρ m f.cells m' g.cells)
    (hid : sch.IdsLeft (max 1 f.levels) m f.cells) (hid' : sch.IdsLeft (max 1 g.levels) m' g.cells)
    (hor : sch = .sqrt3 ∨ (f.cells = [] ∧ g.cells = []) ∨ SameStarts ρ m m') :
    ∃ out out' ρ', (iterUpdate sch lib cosn f m).1 = .ok out ∧ (iterUpdate sch lib' cosn g m').1 = .ok out' ∧
      (∀ v, v < m.points.length → ρ' v = ρ v) ∧ SameSurface ρ' out out' := by
  rw [hL] at hid'
  obtain ⟨out, s, out', s', ρ', h1, h2, h3, h4, h5⟩ := manyLevels_piece (cosn := cosn) hlib hlib' (max 1 f.levels)
    { needs := hn, listed := hsel, ids := hid, piece := R.piece, closed := hc, same := S, starts := hor.imp_right (.imp_left And.left) }
    ⟨hn', hsel', hid'⟩
  refine ⟨out, out', ρ', ?_, ?_, h3, h4.whole (h5 fun t ht => R.inPiece ht)⟩
  · rw [iterUpdate_eq, ← levelsOf_eq, h1]; rfl
  · rw [iterUpdate_eq, ← levelsOf_eq, hL, h2]; rfl

theorem hasTri_turn {T : List Tri} {t : Tri} {x y z : PId} (hi : t.Is x y z) : HasTri T t.1 t.2.1 t.2.2 ↔ HasTri T x y z := by
  rcases hi with rfl | rfl | rfl
  · rfl
  · exact ⟨fun h => h.rot.rot, fun h => h.rot⟩
  · exact ⟨fun h => h.rot, fun h => h.rot.rot⟩

/-- it is enough to look at the lists of the cells -/
theorem sameSurface_of {T T' : List Tri} (hT : m.tris = T) (hT' : m'.tris = T')
    (h1 : ∀ t ∈ T, HasTri T' (ρ t.1) (ρ t.2.1) (ρ t.2.2)) (h2 : ∀ t' ∈ T', ∃ t ∈ T, (t.rename ρ).Is t'.1 t'.2.1 t'.2.2)
    (h3 : ∀ t ∈ T, ∀ t' ∈ T, ∀ v ∈ t.verts, ∀ w ∈ t'.verts, ρ v = ρ w → v = w)
    (h4 : ∀ t ∈ T, ∀ v ∈ t.verts, m'.pos (ρ v) = m.pos v) : SameSurface ρ m m' := by
  subst hT hT'
  refine ⟨?_, ?_, h3, h4⟩
  · intro x y z h
    obtain ⟨t, ht, hi⟩ := hasTri_iff.1 h
    exact (hasTri_turn (hi.rename ρ)).1 (h1 t ht)
  · intro x' y' z' h
    obtain ⟨t', ht', hi'⟩ := hasTri_iff.1 h
    obtain ⟨t, ht, hi⟩ := h2 t' ht'
    obtain ⟨a', b', c'⟩ := t'
    obtain ⟨a, b, c⟩ := t
    have h0 : HasTri m.tris a b c := Or.inl ht
    simp only [Tri.Is, Tri.rename, Prod.mk.injEq] at hi hi'
    rcases hi with ⟨rfl, rfl, rfl⟩ | ⟨rfl, rfl, rfl⟩ | ⟨rfl, rfl, rfl⟩ <;>
      rcases hi' with ⟨rfl, rfl, rfl⟩ | ⟨rfl, rfl, rfl⟩ | ⟨rfl, rfl, rfl⟩ <;>
      first
      | exact ⟨_, _, _, h0, rfl, rfl, rfl⟩
      | exact ⟨_, _, _, h0.rot, rfl, rfl, rfl⟩
      | exact ⟨_, _, _, h0.rot.rot, rfl, rfl, rfl⟩

theorem sameSelection_of {T : List Tri} (hT : m.tris = T) {sel sel' : List CId}
    (h : ∀ t ∈ T, (HasTri (m'.selected sel') (ρ t.1) (ρ t.2.1) (ρ t.2.2) ↔ HasTri (m.selected sel) t.1 t.2.1 t.2.2)) :
    SameSelection ρ m sel m' sel' := by
  subst hT
  intro x y z hx
  obtain ⟨t, ht, hi⟩ := hasTri_iff.1 hx
  rw [← hasTri_turn hi, ← hasTri_turn (hi.rename ρ)]
  exact h t ht

/-- `tetraMesh` with other point ids, another order of the cells and two cells listed from another corner on -/
def tetraTurn : Mesh Q3 Nat :=
  mk [(0, 4, 0), (4, 0, 0), (0, 0, 0), (0, 0, 4)] [(1, 3, 0), (1, 0, 2), (3, 1, 2), (2, 0, 3)] none

theorem tetraTurn_ok : tetraTurn.Valid ∧ tetraTurn.RingOK ∧ tetraTurn.NoIsolated ∧
    tetraTurn.tris = [(1, 3, 0), (1, 0, 2), (3, 1, 2), (2, 0, 3)] := mk_ok _ (by decide)

theorem tetraTurn_needs (sch : Scheme) : sch.Needs tetraTurn :=
  ⟨tetraTurn_ok.1, fun _ => tetraTurn_ok.2.1, fun _ => tetraTurn_ok.2.2.1⟩

theorem tetraTurn_same : SameSurface swap02 tetraMesh tetraTurn := by
  refine sameSurface_of tetraMesh_ok.2.2.2 tetraTurn_ok.2.2.2 ?_ ?_ ?_ ?_
  · unfold HasTri; decide
  · unfold Tri.Is; decide
  · decide
  · decide +kernel

theorem tetraTurn_selection : SameSelection swap02 tetraMesh [2, 0, 2] tetraTurn [1, 2] := by
  refine sameSelection_of tetraMesh_ok.2.2.2 ?_
  unfold HasTri
  decide +kernel

theorem tetraTurn_sel : tetraTurn.SelOK [1, 2] := by unfold Mesh.SelOK; decide

theorem tetraTurn_two : ∀ t ∈ tetraMesh.tris, (t.sharedWith (tetraMesh.selected [2, 0, 2])).length = 2 →
    t.rename swap02 ∈ tetraTurn.tris := by
  rw [tetraMesh_ok.2.2.2, tetraTurn_ok.2.2.2]
  decide +kernel

/-- two of the cells are selected; the other two have two split edges -/
example (sch : Scheme) (hs : sch ≠ .sqrt3) : ∃ out f' out' g' ρ',
    cellUpdate sch someLib cos0 (Filt.new.setCells [2, 0, 2]) tetraMesh = (.ok out, f') ∧
    cellUpdate sch someLib cos0 (Filt.new.setCells [1, 2]) tetraTurn = (.ok out', g') ∧ SameSurface ρ' out out' := by
  obtain ⟨out, f', h, -⟩ := cellUpdate_ok hs someLib cos0 (f := Filt.new.setCells [2, 0, 2]) (tetraMesh_needs sch) tetraMesh_sel
  obtain ⟨out', g', h', -⟩ := cellUpdate_ok hs someLib cos0 (f := Filt.new.setCells [1, 2]) (tetraTurn_needs sch) tetraTurn_sel
  obtain ⟨ρ', -, h1, -⟩ := C58_listing_partial hs tetraTurn_same (tetraMesh_needs sch) (tetraTurn_needs sch)
    (fun _ => tetraMesh_closed) (fun _ => ⟨rfl, rfl⟩) tetraMesh_sel tetraTurn_sel tetraTurn_selection tetraTurn_two h h'
  exact ⟨out, f', out', g', ρ', h, h', h1⟩

example (sch : Scheme) (hs : sch ≠ .sqrt3) : ∃ out f' out' g' ρ',
    cellUpdate sch someLib cos0 Filt.new tetraMesh = (.ok out, f') ∧
    cellUpdate sch someLib cos0 Filt.new tetraTurn = (.ok out', g') ∧ SameSurface ρ' out out' := by
  obtain ⟨out, f', h, -⟩ := cellUpdate_ok hs someLib cos0 (f := Filt.new) (tetraMesh_needs sch) (selOK_nil _)
  obtain ⟨out', g', h', -⟩ := cellUpdate_ok hs someLib cos0 (f := Filt.new) (tetraTurn_needs sch) (selOK_nil _)
  obtain ⟨ρ', -, h1⟩ := C58_listing_uniform hs tetraTurn_same (tetraMesh_needs sch) (tetraTurn_needs sch)
    (fun _ => tetraMesh_closed) (fun _ => ⟨rfl, rfl⟩) rfl rfl h h'
  exact ⟨out, f', out', g', ρ', h, h', h1⟩

example : ∃ out f' out' g' ρ',
    cellUpdate .sqrt3 someLib cos0 (usedFilt [2, 0, 2]) tetraMesh = (.ok out, f') ∧
    cellUpdate .sqrt3 someLib cos0 (usedFilt [1, 2]) tetraTurn = (.ok out', g') ∧ SameSurface ρ' out out' := by
  obtain ⟨out, f', h, -⟩ := sqrt3Update_ok tetraMesh_ok.1 someLib cos0 (f := usedFilt [2, 0, 2]) tetraMesh_sel (by decide)
  obtain ⟨out', g', h', -⟩ := sqrt3Update_ok tetraTurn_ok.1 someLib cos0 (f := usedFilt [1, 2]) tetraTurn_sel (by decide)
  obtain ⟨ρ', -, h1, -⟩ := C58_listing_sqrt3 tetraTurn_same tetraMesh_ok.1 tetraTurn_ok.1 (f := usedFilt [2, 0, 2])
    (g := usedFilt [1, 2]) tetraMesh_sel tetraTurn_sel tetraTurn_selection (by decide) (by decide) h h'
  exact ⟨out, f', out', g', ρ', h, h', h1⟩

/-- all schemes, five levels, no selection -/
example (sch : Scheme) : ∃ out out' ρ', (iterUpdate sch someLib cos0 ⟨[], 5, []⟩ tetraMesh).1 = .ok out ∧
    (iterUpdate sch someLib cos0 ⟨[], 5, []⟩ tetraTurn).1 = .ok out' ∧ SameSurface ρ' out out' := by
  obtain ⟨out, out', ρ', h1, h2, -, h3⟩ := C58_listing_iterative_partial (f := ⟨[], 5, []⟩) (g := ⟨[], 5, []⟩)
    (fun _ => someLib_lawful) (fun _ => someLib_lawful) cos0 tetraTurn_same (tetraMesh_needs sch) (tetraTurn_needs sch)
    (fun _ => tetraMesh_closed) rfl (selOK_nil _) (selOK_nil _) (selected_all tetraTurn_same)
    (fun _ => by decide) (fun _ => by decide) (Or.inr (Or.inl ⟨rfl, rfl⟩))
  exact ⟨out, out', ρ', h1, h2, h3⟩

/-- an edge filter; the lists name the edges of one cell in different order and direction -/
example (sch : EdgeScheme) : ∃ out f' out' g' ρ',
    edgeUpdate sch someLib cos0 (Filt.new.setEdges [some (0, 1), some (1, 2), some (2, 0)]) tetraMesh = (.ok out, f') ∧
    edgeUpdate sch someLib cos0 (Filt.new.setEdges [some (2, 0), none, some (0, 1), some (2, 1)]) tetraTurn = (.ok out', g') ∧
    SameSurface ρ' out out' := by
  have e1 : tetraMesh.EdgeSelOK [some (0, 1), some (1, 2), some (2, 0)] := by
    intro e he
    simp only [List.mem_cons, Option.some.injEq, List.not_mem_nil, or_false] at he
    rcases he with rfl | rfl | rfl <;> unfold Mesh.IsEdge <;> decide +kernel
  have e2 : tetraTurn.EdgeSelOK [some (2, 0), none, some (0, 1), some (2, 1)] := by
    intro e he
    simp only [List.mem_cons, Option.some.injEq, List.not_mem_nil, or_false, reduceCtorEq, false_or] at he
    rcases he with rfl | rfl | rfl <;> unfold Mesh.IsEdge <;> decide +kernel
  have hS : SameSplits swap02 tetraMesh [some (0, 1), some (1, 2), some (2, 0)] tetraTurn
      [some (2, 0), none, some (0, 1), some (2, 1)] := by
    have key : ∀ e ∈ tetraMesh.edges ++ tetraMesh.edges.map Edge.sym,
        ((e.rename swap02 ∈ tetraTurn.selectedEdges [some (2, 0), none, some (0, 1), some (2, 1)] ∨
          (e.rename swap02).sym ∈ tetraTurn.selectedEdges [some (2, 0), none, some (0, 1), some (2, 1)]) ↔
        (e ∈ tetraMesh.selectedEdges [some (0, 1), some (1, 2), some (2, 0)] ∨
          e.sym ∈ tetraMesh.selectedEdges [some (0, 1), some (1, 2), some (2, 0)])) := by decide +kernel
    rintro e (he | he)
    · exact key e (List.mem_append_left _ he)
    · exact key e (List.mem_append_right _ (List.mem_map.2 ⟨e.sym, he, Edge.sym_sym e⟩))
  obtain ⟨out, f', h, -⟩ := edgeUpdate_ok (sch := sch) someLib cos0 (f := Filt.new.setEdges _) (tetraMesh_needs _) e1
  obtain ⟨out', g', h', -⟩ := edgeUpdate_ok (sch := sch) someLib cos0 (f := Filt.new.setEdges _) (tetraTurn_needs _) e2
  obtain ⟨ρ', -, h1⟩ := C58_listing_edge_partial tetraTurn_same (tetraMesh_needs _) (tetraTurn_needs _)
    (fun _ => tetraMesh_closed) (f := Filt.new.setEdges _) (g := Filt.new.setEdges _) e1 e2 hS (by
      rw [tetraMesh_ok.2.2.2, tetraTurn_ok.2.2.2]
      decide +kernel) h h'
  exact ⟨out, f', out', g', ρ', h, h', h1⟩

example (sch : EdgeScheme) : ∃ out f' out' g' ρ',
    edgeUpdate sch someLib cos0 Filt.new tetraMesh = (.ok out, f') ∧
    edgeUpdate sch someLib cos0 Filt.new tetraTurn = (.ok out', g') ∧ SameSurface ρ' out out' := by
  obtain ⟨out, f', h, -⟩ := edgeUpdate_ok (sch := sch) someLib cos0 (f := Filt.new) (tetraMesh_needs _) (by intro e he; cases he)
  obtain ⟨out', g', h', -⟩ := edgeUpdate_ok (sch := sch) someLib cos0 (f := Filt.new) (tetraTurn_needs _) (by intro e he; cases he)
  obtain ⟨ρ', -, h1⟩ := C58_listing_edge_uniform tetraTurn_same (tetraMesh_needs _) (tetraTurn_needs _)
    (fun _ => tetraMesh_closed) rfl rfl h h'
  exact ⟨out, f', out', g', ρ', h, h', h1⟩

/-- a cell with neighbours at two edges -/
def fan : Mesh ℚ Nat := mk [0, 4, 8, 100, 1000] [(0, 1, 2), (1, 0, 3), (2, 1, 4)] none
/-- the same with the first cell listed from its second corner on -/
def fanTurn : Mesh ℚ Nat := mk [0, 4, 8, 100, 1000] [(1, 2, 0), (1, 0, 3), (2, 1, 4)] none

theorem fan_ok : fan.Valid ∧ fan.RingOK ∧ fan.NoIsolated ∧ fan.tris = [(0, 1, 2), (1, 0, 3), (2, 1, 4)] := mk_ok _ (by decide)
theorem fanTurn_ok : fanTurn.Valid ∧ fanTurn.RingOK ∧ fanTurn.NoIsolated ∧
    fanTurn.tris = [(1, 2, 0), (1, 0, 3), (2, 1, 4)] := mk_ok _ (by decide)

theorem fan_same : SameSurface id fan fanTurn := by
  refine sameSurface_of fan_ok.2.2.2 fanTurn_ok.2.2.2 ?_ ?_ ?_ ?_
  · unfold HasTri; decide
  · unfold Tri.Is; decide
  · decide
  · decide +kernel

theorem fan_selection : SameSelection id fan [1, 2] fanTurn [1, 2] := by
  refine sameSelection_of fan_ok.2.2.2 ?_
  unfold HasTri
  decide +kernel

/-- C58 is false without the condition on cells with two split edges: the diagonal drawn in such a cell depends on the
corner at which the cell begins.  The two meshes differ in nothing else. -/
theorem C58_first_corner_refuted (lib lib' : QELib) (cosn : Nat → ℚ) : ∃ (m m' : Mesh ℚ Nat) (sel : List CId),
    Scheme.linear.Needs m ∧ Scheme.linear.Needs m' ∧ m.SelOK sel ∧ m'.SelOK sel ∧ SameSurface id m m' ∧
    SameSelection id m sel m' sel ∧
    ∃ out f' out' g', cellUpdate .linear lib cosn (Filt.new.setCells sel) m = (.ok out, f') ∧
      cellUpdate .linear lib' cosn (Filt.new.setCells sel) m' = (.ok out', g') ∧ ∀ ρ', ¬ SameSurface ρ' out out' := by
  have hn : Scheme.linear.Needs fan := ⟨fan_ok.1, fun _ => fan_ok.2.1, fun _ => fan_ok.2.2.1⟩
  have hn' : Scheme.linear.Needs fanTurn := ⟨fanTurn_ok.1, fun _ => fanTurn_ok.2.1, fun _ => fanTurn_ok.2.2.1⟩
  have hs : fan.SelOK [1, 2] := by unfold Mesh.SelOK; decide
  have hs' : fanTurn.SelOK [1, 2] := by unfold Mesh.SelOK; decide
  obtain ⟨out, f', h, A⟩ := cellUpdate_ok (sch := .linear) (by decide) lib cosn (f := Filt.new.setCells [1, 2]) hn hs
  obtain ⟨out', g', h', B⟩ := cellUpdate_ok (sch := .linear) (by decide) lib' cosn (f := Filt.new.setCells [1, 2]) hn' hs'
  refine ⟨fan, fanTurn, [1, 2], hn, hn', hs, hs', fan_same, fan_selection, out, f', out', g', h, h', ?_⟩
  intro ρ' R
  have k1 : ∃ t ∈ out.tris, ∃ v ∈ t.verts, ∃ w ∈ t.verts, out.pos v = some 8 ∧ out.pos w = some 2 := by
    unfold Mesh.pos
    rw [A.tris, A.points, fan_ok.2.2.2, show schemeBase Scheme.linear cosn fan (Filt.new.setCells [1, 2]) = fan.coord from rfl]
    decide +kernel
  have k2 : ∀ t ∈ out'.tris, ∀ v ∈ t.verts, ∀ w ∈ t.verts, ¬ (out'.pos v = some 8 ∧ out'.pos w = some 2) := by
    unfold Mesh.pos
    rw [B.tris, B.points, fanTurn_ok.2.2.2,
      show schemeBase Scheme.linear cosn fanTurn (Filt.new.setCells [1, 2]) = fanTurn.coord from rfl]
    decide +kernel
  obtain ⟨t, ht, v, hv, w, hw, p1, p2⟩ := k1
  obtain ⟨t', ht', hi⟩ := hasTri_iff.1 (R.tri t.1 t.2.1 t.2.2 (Or.inl ht))
  have hmem : ∀ {x}, x ∈ t.verts → ρ' x ∈ t'.verts := by
    intro x hx
    simp only [Tri.verts, List.mem_cons, List.not_mem_nil, or_false] at hx ⊢
    rcases hi with h | h | h <;> rw [h] <;> rcases hx with rfl | rfl | rfl <;> simp
  exact k2 t' ht' _ (hmem hv) _ (hmem hw) ⟨(R.pos t ht v hv).trans p1, (R.pos t ht w hw).trans p2⟩

end Verif
