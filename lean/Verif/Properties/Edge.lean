import Verif.Properties.Points
/-
C39, C40: the edge filters.  `inp.listPoint f.edgeSel e` is the point that the list puts on edge `e`.
-/
namespace Verif
variable {sch : EdgeScheme} {lib : QELib} {f f' : Filt}

section completes
variable {K P D : Type} [Field K] [Zero P] [Add P] [SMul K P] {cosn : Nat → K} {inp out : Mesh P D}

/-- C39. On a valid mesh an edge filter returns; an edge receives a point exactly if it is listed (or the list is empty); a
triangle with `k` listed edges is replaced by `k + 1` triangles; the output is a valid mesh and no split edge is left. -/
theorem C39_edge_filter_completes (lib : QELib) (cosn : Nat → K) (hn : sch.toScheme.Needs inp)
    (hsel : inp.EdgeSelOK f.edgeSel) :
    ∃ out f', edgeUpdate sch lib cosn f inp = (.ok out, f') ∧
      (∀ e, (inp.listPoint f.edgeSel e).isSome ↔ e ∈ inp.selectedEdges f.edgeSel ∨ e.sym ∈ inp.selectedEdges f.edgeSel) ∧
      out.tris = inp.tris.flatMap (Tri.children (inp.listPoint f.edgeSel)) ∧
      (∀ t ∈ inp.tris, (t.children (inp.listPoint f.edgeSel)).length = 1 + (t.darts.filter fun e =>
        decide (e ∈ inp.selectedEdges f.edgeSel ∨ e.sym ∈ inp.selectedEdges f.edgeSel)).length) ∧
      out.Valid ∧ (lib.Lawful → out.RingOK) ∧
      (∀ e m, inp.listPoint f.edgeSel e = some m → inp.points.length ≤ m ∧ m < out.points.length ∧ ¬ out.IsEdge e) ∧
      f'.edgeSel = f.edgeSel := by
  obtain ⟨out, f', h, R⟩ := edgeUpdate_ok lib cosn hn hsel
  have hv := hn.valid
  have hsome := lastLabel_isSome inp.points.length (inp.selectedEdges f.edgeSel)
  refine ⟨out, f', h, hsome, R.tris, ?_, R.valid hv, R.ringOK hv, ?_, by rw [R.filt]⟩
  · intro t _
    rw [children_length]
    congr 2
    apply List.filter_congr
    intro e _
    rw [Bool.eq_iff_iff, decide_eq_true_eq]
    exact hsome e
  · intro e m hm
    have h1 := R.fresh e m hm
    have h2 := hv.isEdge_lt (listPoint_isEdge hsel hm)
    exact ⟨h1.1, by rw [R.points_length]; exact h1.2, R.split_edge_gone hv hm h2.1 h2.2⟩

theorem patchMesh_edges : patchMesh.EdgeSelOK [some (1, 0), none, some (4, 2)] := by
  intro e he
  simp only [List.mem_cons, Option.some.injEq, List.not_mem_nil, or_false] at he
  rcases he with rfl | h | rfl
  · unfold Mesh.IsEdge; decide
  · cases h
  · unfold Mesh.IsEdge; decide

example : ∃ out f', edgeUpdate .butterfly someLib cos0 (Filt.new.setEdges [some (1, 0), none, some (4, 2)]) patchMesh =
    (.ok out, f') ∧ out.Valid ∧ out.tris.length = 7 := by
  obtain ⟨out, f', h1, _, h3, _, h5, _⟩ := C39_edge_filter_completes (K := ℚ) (sch := .butterfly)
    (f := Filt.new.setEdges [some (1, 0), none, some (4, 2)]) someLib cos0 (patchMesh_needs _) patchMesh_edges
  exact ⟨out, f', h1, h5, by rw [h3, patchMesh_ok.2.2.2]; decide⟩

/-- C39, lists without repeated edges: the `i`-th listed edge receives point `n + i`, there are no other new points, and
no point of the output is isolated if none of the input was, so that any filter accepts the output. -/
theorem C39_edge_filter_points (hn : sch.toScheme.Needs inp) (hsel : inp.EdgeSelOK f.edgeSel)
    (hd : DistinctEdges (inp.selectedEdges f.edgeSel)) (h : edgeUpdate sch lib cosn f inp = (.ok out, f')) :
    out.points.length = inp.points.length + (inp.selectedEdges f.edgeSel).length ∧
    (∀ i e, (inp.selectedEdges f.edgeSel)[i]? = some e →
      inp.listPoint f.edgeSel e = some (inp.points.length + i) ∧
      inp.listPoint f.edgeSel e.sym = some (inp.points.length + i)) ∧
    (inp.NoIsolated → out.NoIsolated) ∧
    (lib.Lawful → inp.NoIsolated → ∀ sch' : Scheme, sch'.Needs out) := by
  have R := edgeUpdate_result hn hsel h
  have hv := hn.valid
  have hi : ∀ i e, (inp.selectedEdges f.edgeSel)[i]? = some e →
      inp.listPoint f.edgeSel e = some (inp.points.length + i) ∧
      inp.listPoint f.edgeSel e.sym = some (inp.points.length + i) := by
    intro i e he
    unfold Mesh.listPoint
    rw [lastLabel_eq hd]
    exact ⟨labelOf_getElem hd he, labelOf_getElem_sym hd he⟩
  have hno : inp.NoIsolated → out.NoIsolated := by
    intro hno
    refine R.noIsolated hno ?_
    intro m h1 h2
    simp only [List.length_append, List.length_map, List.length_range] at h2
    have h3 : m - inp.points.length < (inp.selectedEdges f.edgeSel).length := (Nat.sub_lt_iff_lt_add' h1).2 h2
    obtain ⟨g1, g2⟩ := hi _ _ (List.getElem?_eq_getElem h3)
    rw [Nat.add_sub_cancel' h1] at g1 g2
    rcases (hv.edges_iff _).1 (selectedEdges_isEdge hsel (List.getElem_mem h3)) with hd | hd
    · exact ⟨_, hd, g1⟩
    · exact ⟨_, hd, g2⟩
  refine ⟨?_, hi, hno, fun hl h1 _ => ⟨R.valid hv, fun _ => R.ringOK hv hl, fun _ => hno h1⟩⟩
  rw [R.points_length]
  simp

example (out : Mesh Q3 Nat) (f' : Filt) (h : edgeUpdate .loop someLib cos0
    (Filt.new.setEdges [some (1, 0), none, some (4, 2)]) patchMesh = (.ok out, f')) :
    out.points.length = 8 ∧ Scheme.loop.Needs out := by
  obtain ⟨h1, _, _, h4⟩ := C39_edge_filter_points (sch := .loop) (patchMesh_needs _) patchMesh_edges
    (by unfold DistinctEdges Mesh.selectedEdges Filt.setEdges; decide) h
  exact ⟨h1, h4 someLib_lawful patchMesh_ok.2.2.1 _⟩

end completes

variable {K P D : Type} [Field K] [AddCommGroup P] [Module K P] {cosn : Nat → K} {inp out : Mesh P D}

/-- C40. The Linear and the Loop edge filter put the point of an edge where the cell filter of the same scheme puts it, and
(with all three schemes) the original points stay where they are. -/
theorem C40_edge_points_as_cell_filter (hs : sch ≠ .butterfly) (hn : sch.toScheme.Needs inp)
    (hsel : inp.EdgeSelOK f.edgeSel) (h : edgeUpdate sch lib cosn f inp = (.ok out, f'))
    {g g' : Filt} {lib' : QELib} {cosn' : Nat → K} {out' : Mesh P D} (hsel' : inp.SelOK g.cells)
    (h' : cellUpdate sch.toScheme lib' cosn' g inp = (.ok out', g')) {e : Edge} {m m' : PId}
    (hm : inp.listPoint f.edgeSel e = some m) (hm' : inp.edgePoint g.cells e = some m') :
    out.pos m = out'.pos m' ∧ (out.pos m).isSome ∧ ∀ v, v < inp.points.length → out.pos v = inp.pos v := by
  have hv := hn.valid
  obtain ⟨e₁, p₁, a1, a2, a3, a4⟩ := edgeUpdate_edgeValue hn hsel h hm
  obtain ⟨e₂, p₂, b1, b2, b3, b4⟩ := cellUpdate_edgeValue (by cases sch <;> decide) hn hsel' h' hm'
  have hsym : ∀ e, inp.IsEdge e → schemePoint sch.toScheme K inp e.sym = schemePoint sch.toScheme K inp e := by
    intro e he
    cases sch with
    | linear => exact linearPoint_sym hv he
    | loop => exact loopPoint_sym hv (hn.ring (Or.inl rfl)) he
    | butterfly => exact absurd rfl hs
  have he : inp.IsEdge e := listPoint_isEdge hsel hm
  have h1 : schemePoint sch.toScheme K inp e = .ok p₁ := by
    rcases a1 with rfl | rfl
    · exact a3
    · rw [← hsym e he]; exact a3
  have h2 : schemePoint sch.toScheme K inp e = .ok p₂ := by
    rcases b1 with rfl | rfl
    · exact b3
    · rw [← hsym e he]; exact b3
  rw [h1] at h2
  refine ⟨by rw [a4, b4, Except.ok.inj h2], by rw [a4]; rfl, ?_⟩
  intro v hvn
  rw [hv.pos_eq hvn]
  exact pos_base (edgeUpdate_result hn hsel h).points hvn

example (out out' : Mesh Q3 Nat) (f' g' : Filt) (h : edgeUpdate .loop someLib cos0
      (Filt.new.setEdges [some (1, 0), none, some (4, 2)]) patchMesh = (.ok out, f'))
    (h' : cellUpdate .loop someLib cos0 (usedFilt [1, 3]) patchMesh = (.ok out', g')) :
    out.pos 6 = some (7 / 4, 0, 0) ∧ out.pos 2 = some (0, 4, 0) := by
  obtain ⟨h1, -, h3⟩ := C40_edge_points_as_cell_filter (sch := .loop) (by decide) (patchMesh_needs _) patchMesh_edges h
    patchMesh_sel h' (e := (0, 1)) (m := 6) (m' := 6) (by decide) (by decide)
  refine ⟨h1.trans ?_, h3 2 (by decide)⟩
  have h1 := C08_loop_inner_edge (patchMesh_needs _) patchMesh_sel h' (a := 0) (b := 1) (c := 2) (d := 3) (m := 6)
    (by decide) (by rw [patchMesh_ok.2.2.2]; unfold HasTri; decide) (by rw [patchMesh_ok.2.2.2]; unfold HasTri; decide)
    rfl rfl rfl rfl
  rw [h1]; norm_num

/-- C40, ModifiedButterfly edge filter: the eight-point stencil of the cell filter. -/
theorem C40_butterfly_edge_stencil (hv : inp.Valid) (hr : inp.RingOK) (hsel : inp.EdgeSelOK f.edgeSel)
    (h : edgeUpdate .butterfly lib cosn f inp = (.ok out, f')) {a b c d w₁ w₂ w₃ w₄ m : PId}
    (hm : inp.listPoint f.edgeSel (a, b) = some m)
    (hc : HasTri inp.tris a b c) (hd : HasTri inp.tris b a d)
    (h1 : HasTri inp.tris c b w₁) (h2 : HasTri inp.tris a c w₂) (h3 : HasTri inp.tris d a w₃) (h4 : HasTri inp.tris b d w₄)
    {pa pb pc pd q₁ q₂ q₃ q₄ : P} (ha : inp.pos a = some pa) (hb : inp.pos b = some pb) (hpc : inp.pos c = some pc)
    (hpd : inp.pos d = some pd) (hq₁ : inp.pos w₁ = some q₁) (hq₂ : inp.pos w₂ = some q₂) (hq₃ : inp.pos w₃ = some q₃)
    (hq₄ : inp.pos w₄ = some q₄) :
    out.pos m = some ((1 / 2 : K) • (pa + pb) + (1 / 8 : K) • (pc + pd) - (1 / 16 : K) • (q₁ + q₂ + q₃ + q₄)) := by
  have hn : EdgeScheme.butterfly.toScheme.Needs inp := ⟨hv, fun _ => hr, by simp [EdgeScheme.toScheme]⟩
  obtain ⟨e', p, g1, g2, g3, g4⟩ := edgeUpdate_edgeValue hn hsel h hm
  rw [g4, butterflyPoint_stencil hv hr hc hd h1 h2 h3 h4 ha hb hpc hpd hq₁ hq₂ hq₃ hq₄ g1 g3]

example (out : Mesh Q3 Nat) (f' : Filt)
    (h : edgeUpdate .butterfly someLib cos0 (Filt.new.setEdges [some (1, 0)]) tetraMesh = (.ok out, f')) :
    out.pos 4 = some (2, 0, 0) := by
  have h1 := C40_butterfly_edge_stencil tetraMesh_ok.1 tetraMesh_ok.2.1 (by
      intro e he
      simp only [Filt.setEdges, List.mem_cons, Option.some.injEq, List.not_mem_nil, or_false] at he
      subst he
      unfold Mesh.IsEdge; decide) h (a := 0) (b := 1) (c := 2) (d := 3)
    (w₁ := 3) (w₂ := 3) (w₃ := 2) (w₄ := 2) (m := 4)
    (by decide) (by rw [tetraMesh_ok.2.2.2]; unfold HasTri; decide) (by rw [tetraMesh_ok.2.2.2]; unfold HasTri; decide)
    (by rw [tetraMesh_ok.2.2.2]; unfold HasTri; decide) (by rw [tetraMesh_ok.2.2.2]; unfold HasTri; decide)
    (by rw [tetraMesh_ok.2.2.2]; unfold HasTri; decide) (by rw [tetraMesh_ok.2.2.2]; unfold HasTri; decide)
    rfl rfl rfl rfl rfl rfl rfl rfl
  rw [h1]; norm_num; rfl

end Verif
