import Verif.Proofs.Compact
import Verif.Properties.Samples
import Verif.Spec.Topology
/-
C45: the numbering of the points.
-/
namespace Verif
set_option linter.unusedSectionVars false
variable {K P D : Type} [Field K] [AddCommGroup P] [Module K P]

theorem isoMesh_renamed : Renamed (· - 1) isoMesh patchMesh := by
  refine ⟨by decide, ?_, ?_⟩
  · rw [isoMesh_ok.2.2]; decide
  · rw [isoMesh_ok.2.2]; decide +kernel

theorem isoMesh_rings : RingRenamed (· - 1) isoMesh patchMesh := by
  have h : ∀ e ∈ isoMesh.edges ++ isoMesh.edges.map Edge.sym,
      patchMesh.ring.onext (Edge.rename (· - 1) e) = (isoMesh.ring.onext e).map (Edge.rename (· - 1)) := by decide +kernel
  intro e he
  refine h e (List.mem_append.2 ?_)
  rcases he with he | he
  · exact Or.inl he
  · exact Or.inr (List.mem_map.2 ⟨_, he, by simp⟩)

/-- `tetraMesh` with points 0 and 2 exchanged -/
def tetraSwap : Mesh Q3 Nat :=
  mk [(0, 4, 0), (4, 0, 0), (0, 0, 0), (0, 0, 4)] [(2, 1, 0), (2, 0, 3), (2, 3, 1), (1, 3, 0)]
    (some [(0, 10), (1, 11), (2, 12), (3, 13)])

def swap02 (v : PId) : PId := if v = 0 then 2 else if v = 2 then 0 else v

theorem tetraSwap_ok : tetraSwap.Valid ∧ tetraSwap.RingOK ∧ tetraSwap.NoIsolated ∧
    tetraSwap.tris = [(2, 1, 0), (2, 0, 3), (2, 3, 1), (1, 3, 0)] := mk_ok _ (by decide)

theorem tetraSwap_renamed : Renamed swap02 tetraMesh tetraSwap := by
  refine ⟨by decide, ?_, ?_⟩
  · rw [tetraMesh_ok.2.2.2]; decide
  · rw [tetraMesh_ok.2.2.2]; decide +kernel

theorem tetraMesh_closed : tetraMesh.Closed := by
  have h : ∀ e ∈ dartsOf tetra, Edge.sym e ∈ dartsOf tetra := by decide
  rintro e ⟨h1, h2⟩
  rw [tetraMesh_ok.2.2.2] at h1 h2
  exact h2 (h e h1)

theorem tetraSwap_needs (sch : Scheme) : sch.Needs tetraSwap :=
  ⟨tetraSwap_ok.1, fun _ => tetraSwap_ok.2.1, fun _ => tetraSwap_ok.2.2.1⟩

/-- on a closed mesh the cyclic order of the edges around a point is that of the triangles -/
theorem C45_closed_rings {ρ : PId → PId} {m m' : Mesh P D} (R : Renamed ρ m m') (hv : m.Valid) (hr : m.RingOK)
    (hr' : m'.RingOK) (hc : m.Closed) : RingRenamed ρ m m' := by
  rintro ⟨a, b⟩ he
  have hd : (a, b) ∈ dartsOf m.tris := by
    by_contra h
    have h1 := (hv.edges_iff (a, b)).1 he
    have h2 : Edge.sym (a, b) ∈ dartsOf m.tris := by tauto
    exact hc _ ⟨h2, by rw [Edge.sym_sym]; exact h⟩
  obtain ⟨c, h⟩ := dartsOf_iff_hasTri.1 hd
  rw [hr.face a b c h]
  exact hr'.face _ _ _ (R.hasTri h)

/-- C45. The numbering of the points does not matter: two meshes with the same cells (same ids, corners at the same
positions) and whatever other point ids, given to filter objects with the same selection, yield meshes with the same cells
again, the same data on them and the same cells recorded for the next run.  All four cell filters; for Butterfly the edges
have to be linked in the same cyclic order, which on a closed mesh they are (`C45_closed_rings`); for Loop the object has to
smooth all points, since it reads cell ids as point ids otherwise (C42). -/
theorem C45_numbering {sch : Scheme} {ρ : PId → PId} {m m' : Mesh P D} (R : Renamed ρ m m') (hn : sch.Needs m)
    (hn' : sch.Needs m') (Q : sch = .butterfly → RingRenamed ρ m m') (lib lib' : QELib) (cosn : Nat → K) {f g : Filt}
    (hfg : g.cells = f.cells) (hl : sch = .loop → f.uniform = true ∧ g.uniform = true) (hsel : m.SelOK f.cells)
    (hmax : sch = .sqrt3 → max m.points.length m'.points.length + (m.selected f.cells).length ≤ idMax) :
    ∃ out f' out' g', cellUpdate sch lib cosn f m = (.ok out, f') ∧ cellUpdate sch lib' cosn g m' = (.ok out', g') ∧
      (∃ ρ', (∀ v, v < m.points.length → ρ' v = ρ v) ∧ (∀ i, ρ' (m.points.length + i) = m'.points.length + i) ∧
        Renamed ρ' out out') ∧
      out'.coordTris = out.coordTris ∧ g'.cells = f'.cells ∧
      ((∀ k, m'.dataAt k = m.dataAt k) → ∀ k, out'.dataAt k = out.dataAt k) := by
  have hext : (∀ v, v < m.points.length → extendId m.points.length m'.points.length ρ v = ρ v) ∧
      ∀ i, extendId m.points.length m'.points.length ρ (m.points.length + i) = m'.points.length + i :=
    ⟨fun v h => if_pos h, fun i => extendId_new _ _ _ _⟩
  by_cases h3 : sch = .sqrt3
  · subst h3
    have hm := hmax rfl
    obtain ⟨out, f₁, out', f₂, h1, h2, h3, h4, h5⟩ := sqrt3Update_rename R hn.valid hn'.valid lib lib' cosn hfg hsel
      (Nat.le_trans (Nat.add_le_add_right (Nat.le_max_left _ _) _) hm)
      (Nat.le_trans (Nat.add_le_add_right (Nat.le_max_right _ _) _) hm)
    exact ⟨out, f₁, out', f₂, h1, h2, ⟨_, hext.1, hext.2, h3⟩, h3.coordTris, h4, h5⟩
  · obtain ⟨out, f₁, out', f₂, h1, h2, h4, h5, h6⟩ := cellUpdate_rename h3 R hn hn' Q lib lib' cosn hfg hl hsel
    exact ⟨out, f₁, out', f₂, h1, h2, ⟨_, hext.1, hext.2, h4⟩, h4.coordTris, h5, h6⟩

/-- two numberings of a tetrahedron, all four schemes, with and without selection -/
example (sch : Scheme) (sel : List CId) (h : sel = [] ∨ sel = [2, 0, 2]) :
    ∃ out f' out' g', cellUpdate sch someLib cos0 ⟨sel, [], true, fun _ => none⟩ tetraMesh = (.ok out, f') ∧
      cellUpdate sch someLib cos0 ⟨sel, [], true, fun e => if e = (0, 1) then some 3 else none⟩ tetraSwap = (.ok out', g') ∧
      out'.coordTris = out.coordTris ∧ g'.cells = f'.cells := by
  have hs : tetraMesh.SelOK sel := by
    rcases h with rfl | rfl
    · exact selOK_nil _
    · exact tetraMesh_sel
  obtain ⟨out, f', out', g', h1, h2, -, h3, h4, -⟩ := C45_numbering tetraSwap_renamed (tetraMesh_needs sch)
    (tetraSwap_needs sch) (fun _ => C45_closed_rings tetraSwap_renamed tetraMesh_ok.1 tetraMesh_ok.2.1 tetraSwap_ok.2.1
      tetraMesh_closed) someLib someLib cos0 (f := ⟨sel, [], true, fun _ => none⟩)
    (g := ⟨sel, [], true, fun e => if e = (0, 1) then some 3 else none⟩) rfl (fun _ => ⟨rfl, rfl⟩) hs
    (fun _ => by rcases h with rfl | rfl <;> decide)
  exact ⟨out, f', out', g', h1, h2, h3, h4⟩

/-- C45 for the edge filters. -/
theorem C45_numbering_edge {sch : EdgeScheme} {ρ : PId → PId} {m m' : Mesh P D} (R : Renamed ρ m m')
    (hn : sch.toScheme.Needs m) (hn' : sch.toScheme.Needs m') (Q : sch = .butterfly → RingRenamed ρ m m')
    (lib lib' : QELib) (cosn : Nat → K) {f g : Filt}
    (hE : f.edgeSel = [] → m'.edges = m.edges.map (Edge.rename ρ))
    (hfg : g.edgeSel = f.edgeSel.map (Option.map (Edge.rename ρ))) (hsel : m.EdgeSelOK f.edgeSel) :
    ∃ out f' out' g', edgeUpdate sch lib cosn f m = (.ok out, f') ∧ edgeUpdate sch lib' cosn g m' = (.ok out', g') ∧
      (∃ ρ', (∀ v, v < m.points.length → ρ' v = ρ v) ∧ (∀ i, ρ' (m.points.length + i) = m'.points.length + i) ∧
        Renamed ρ' out out') ∧
      out'.coordTris = out.coordTris ∧
      ((∀ k, m'.dataAt k = m.dataAt k) → ∀ k, out'.dataAt k = out.dataAt k) := by
  have hemp : g.edgeSel.isEmpty = f.edgeSel.isEmpty := by rw [hfg, List.isEmpty_map]
  have hsel' : m'.EdgeSelOK g.edgeSel := by
    intro e he
    rw [hfg] at he
    obtain ⟨oe, h1, h2⟩ := List.mem_map.1 he
    obtain ⟨x, rfl, rfl⟩ := Option.map_eq_some_iff.1 h2
    exact R.isEdge hn'.valid hn.valid (hsel x h1)
  have hedges : m'.selectedEdges g.edgeSel = (m.selectedEdges f.edgeSel).map (Edge.rename ρ) := by
    unfold Mesh.selectedEdges
    rw [hemp]
    split
    · rename_i h
      exact hE (List.isEmpty_iff.1 h)
    · rw [hfg, List.filterMap_map, List.map_filterMap]
      rfl
  obtain ⟨out, f₁, out', f₂, h1, h2, h4, -, h6⟩ := edgeUpdate_rename R hn hn' Q lib lib' cosn hemp hedges hsel hsel'
  exact ⟨out, f₁, out', f₂, h1, h2, ⟨extendId m.points.length m'.points.length ρ, fun v h => if_pos h, fun i => extendId_new _ _ _ _, h4⟩, h4.coordTris, h6⟩

/-- three edges of the tetrahedron, Butterfly -/
example : ∃ out f' out' g',
    edgeUpdate .butterfly someLib cos0 ⟨[], [some (0, 1), none, some (3, 2)], true, fun _ => none⟩ tetraMesh = (.ok out, f') ∧
    edgeUpdate .butterfly someLib cos0 ⟨[], [some (2, 1), none, some (3, 0)], true, fun _ => none⟩ tetraSwap = (.ok out', g') ∧
      out'.coordTris = out.coordTris := by
  obtain ⟨out, f', out', g', h1, h2, -, h3, -⟩ := C45_numbering_edge (sch := .butterfly) tetraSwap_renamed
    (tetraMesh_needs _) (tetraSwap_needs _) (fun _ => C45_closed_rings tetraSwap_renamed tetraMesh_ok.1 tetraMesh_ok.2.1
      tetraSwap_ok.2.1 tetraMesh_closed) someLib someLib cos0
    (f := ⟨[], [some (0, 1), none, some (3, 2)], true, fun _ => none⟩)
    (g := ⟨[], [some (2, 1), none, some (3, 0)], true, fun _ => none⟩) (by decide) (by decide)
    (by
      intro e he
      simp only [List.mem_cons, Option.some.injEq, List.not_mem_nil, or_false, reduceCtorEq, false_or] at he
      unfold Mesh.IsEdge
      rcases he with rfl | rfl <;> decide)
  exact ⟨out, f', out', g', h1, h2, h3⟩

/-- the two numberings differ in every directed edge at the points 0 and 2 -/
example : RingRenamed swap02 tetraMesh tetraSwap :=
  C45_closed_rings tetraSwap_renamed tetraMesh_ok.1 tetraMesh_ok.2.1 tetraSwap_ok.2.1 tetraMesh_closed

end Verif
