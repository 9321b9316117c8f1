import Verif.Properties.More
import Verif.Properties.Numbering
import Verif.Properties.Edge
import Verif.Proofs.Relabel
/-
C105 for the edge filters: listing more edges never gives a smaller mesh, and no point is lost.
-/
namespace Verif
set_option linter.unusedSectionVars false
variable {K P D : Type} [Field K] [AddCommGroup P] [Module K P] {lib : QELib} {cosn : Nat → K} {sch : EdgeScheme}
  {inp out out' : Mesh P D} {f f' g g' : Filt}

/-- the two runs of the edge filter have the same point on an edge that both split -/
theorem edge_same_place (hn : sch.toScheme.Needs inp) (hb : sch = .butterfly → inp.Closed) (hf : inp.EdgeSelOK f.edgeSel)
    (hg : inp.EdgeSelOK g.edgeSel) (h : edgeUpdate sch lib cosn f inp = (.ok out, f')) (h' : edgeUpdate sch lib cosn g inp = (.ok out', g'))
    {e : Edge} {m m' : PId} (hm : inp.listPoint f.edgeSel e = some m) (hm' : inp.listPoint g.edgeSel e = some m') :
    out'.pos m' = out.pos m := by
  have hsym : ∀ x, inp.IsEdge x → schemePoint sch.toScheme K inp x.sym = schemePoint sch.toScheme K inp x := fun x hx =>
    schemePoint_sym hn (fun hc => hb (by cases sch <;> simp_all [EdgeScheme.toScheme])) hx
  obtain ⟨x, p, h1, h2, h3, h4⟩ := edgeUpdate_edgeValue hn hf h hm
  obtain ⟨y, q, k1, k2, k3, k4⟩ := edgeUpdate_edgeValue hn hg h' hm'
  have hxy : y = x ∨ y = x.sym := by
    rcases h1 with rfl | rfl <;> rcases k1 with rfl | rfl
    · exact Or.inl rfl
    · exact Or.inr rfl
    · exact Or.inr (Edge.sym_sym _).symm
    · exact Or.inl rfl
  have : schemePoint sch.toScheme K inp y = schemePoint sch.toScheme K inp x := by
    rcases hxy with rfl | rfl
    · rfl
    · exact hsym x h2
  rw [this, h3] at k3
  rw [k4, h4, Except.ok.inj k3]

open Classical in
/-- C105, the edge filters: listing more edges never gives a smaller mesh, and every point of the smaller run is a point of the
larger one, at the same place.  Butterfly needs a closed mesh for the latter, since its point of an edge depends on the
direction in which the edge is listed otherwise (C51). -/
theorem C105_more_edges (hn : sch.toScheme.Needs inp) (hf : inp.EdgeSelOK f.edgeSel) (hg : inp.EdgeSelOK g.edgeSel)
    (hdf : DistinctEdges (inp.selectedEdges f.edgeSel)) (hdg : DistinctEdges (inp.selectedEdges g.edgeSel))
    (hmore : inp.SplitsMore f.edgeSel g.edgeSel) (h : edgeUpdate sch lib cosn f inp = (.ok out, f'))
    (h' : edgeUpdate sch lib cosn g inp = (.ok out', g')) :
    out.NotSmaller out' ∧ ((sch = .butterfly → inp.Closed) → out.PointsAmong out') := by
  have hv := hn.valid
  have R := edgeUpdate_result hn hf h
  have Q := edgeUpdate_result hn hg h'
  obtain ⟨l1, i1, -, -⟩ := C39_edge_filter_points hn hf hdf h
  obtain ⟨l2, -, -, -⟩ := C39_edge_filter_points hn hg hdg h'
  have hvo := R.valid hv
  have hsome : ∀ e, (inp.listPoint f.edgeSel e).isSome → (inp.listPoint g.edgeSel e).isSome := by
    intro e he
    unfold Mesh.listPoint at he ⊢
    rw [lastLabel_isSome] at he ⊢
    rcases he with he | he
    · exact hmore e he
    · have := hmore _ he
      rw [Edge.sym_sym] at this
      exact this.symm
  have hlen : (inp.selectedEdges f.edgeSel).length ≤ (inp.selectedEdges g.edgeSel).length := by
    set E := inp.selectedEdges f.edgeSel
    set E' := inp.selectedEdges g.edgeSel
    let φ : Edge → Edge := fun e => if e ∈ E' then e else e.sym
    have hφ : ∀ e, φ e = e ∨ φ e = e.sym := by
      intro e
      by_cases hc : e ∈ E'
      · exact Or.inl (if_pos hc)
      · exact Or.inr (if_neg hc)
    have hnd : (E.map φ).Nodup := by
      refine List.pairwise_map.2 (hdf.imp fun {a b} hab heq => ?_)
      rcases hφ a with ha | ha <;> rcases hφ b with hb | hb <;> rw [ha, hb] at heq
      · exact hab.1 heq
      · exact hab.2 heq
      · exact hab.2 (by rw [← heq, Edge.sym_sym])
      · exact hab.1 (by rw [← Edge.sym_sym a, heq, Edge.sym_sym])
    have hsub : E.map φ ⊆ E' := by
      intro x hx
      obtain ⟨e, he, rfl⟩ := List.mem_map.1 hx
      by_cases hc : e ∈ E'
      · have : φ e = e := if_pos hc
        rw [this]; exact hc
      · have : φ e = e.sym := if_neg hc
        rw [this]; exact (hmore e he).resolve_left hc
    have := (hnd.subperm hsub).length_le
    rwa [List.length_map] at this
  refine ⟨notSmaller_of hvo (Q.valid hv) ((C17_euler_preserved_edge hn hf hdf h).trans (C17_euler_preserved_edge hn hg hdg h').symm)
    (by rw [l1, l2]; omega) ?_, fun hb => ?_⟩
  · rw [R.tris, Q.tris, length_children, length_children]
    refine Nat.add_le_add_left ?_ _
    exact (List.monotone_filter_right _ fun e he => hsome e he).length_le
  · let ρ : PId → PId := fun v => if h : ∃ e, inp.listPoint f.edgeSel e = some v then (inp.listPoint g.edgeSel h.choose).getD 0 else v
    have old : ∀ v : Nat, v < inp.points.length → ρ v = v := by
      intro v hv
      have : ¬ ∃ e, inp.listPoint f.edgeSel e = some v := fun ⟨e, h⟩ => Nat.not_le.2 hv (R.fresh e v h).1
      exact dif_neg this
    have new : ∀ v : Nat, inp.points.length ≤ v → v < out.points.length →
        ∃ e, inp.listPoint f.edgeSel e = some v ∧ inp.listPoint g.edgeSel e = some (ρ v) := by
      intro v k1 k2
      rw [l1] at k2
      have h3 : v - inp.points.length < (inp.selectedEdges f.edgeSel).length := (Nat.sub_lt_iff_lt_add' k1).2 k2
      obtain ⟨g1, -⟩ := i1 _ _ (List.getElem?_eq_getElem h3)
      rw [Nat.add_sub_cancel' k1] at g1
      have hex : ∃ e, inp.listPoint f.edgeSel e = some v := ⟨_, g1⟩
      refine ⟨hex.choose, hex.choose_spec, ?_⟩
      obtain ⟨m, hm⟩ := Option.isSome_iff_exists.1 (hsome hex.choose (by rw [hex.choose_spec]; rfl))
      have : ρ v = m := by
        change dite _ _ _ = m
        rw [dif_pos hex, hm]
        rfl
      rw [this, hm]
    refine ⟨ρ, fun v w p q hp hq heq => ?_, fun v p hp => ?_⟩
    · have hlv := hvo.pos_lt hp
      have hlw := hvo.pos_lt hq
      rcases Nat.lt_or_ge v inp.points.length with k | k <;> rcases Nat.lt_or_ge w inp.points.length with k' | k'
      · rwa [old v k, old w k'] at heq
      · obtain ⟨e, -, h2⟩ := new w k' hlw
        have := (Q.fresh _ _ h2).1
        rw [← heq, old v k] at this
        exact absurd k (Nat.not_lt.2 this)
      · obtain ⟨e, -, h2⟩ := new v k hlv
        have := (Q.fresh _ _ h2).1
        rw [heq, old w k'] at this
        exact absurd k' (Nat.not_lt.2 this)
      · obtain ⟨e, h1, h2⟩ := new v k hlv
        obtain ⟨e', h1', h2'⟩ := new w k' hlw
        rw [← heq] at h2'
        rcases Q.label.inj _ _ _ h2 h2' with rfl | rfl
        · exact Option.some.inj (h1.symm.trans h1')
        · rw [R.label.sym] at h1'
          exact Option.some.inj (h1.symm.trans h1')
    · have hlv := hvo.pos_lt hp
      rcases Nat.lt_or_ge v inp.points.length with k | k
      · rw [old v k]
        have hq := hv.pos_eq k
        rw [C06_original_points_kept_edge hv.points_dense h _ _ hq] at hp
        rw [C06_original_points_kept_edge hv.points_dense h' _ _ hq, hp]
      · obtain ⟨e, h1, h2⟩ := new v k hlv
        rw [edge_same_place hn hb hf hg h h' h1 h2, hp]

/-- C105, one run of Butterfly on a closed mesh: no point is lost. -/
theorem C105_more_butterfly (hn : Scheme.butterfly.Needs inp) (hc : inp.Closed) (hf : inp.SelOK f.cells) (hg : inp.SelOK g.cells)
    (hmore : inp.SelectsMore f.cells g.cells) (h : cellUpdate .butterfly lib cosn f inp = (.ok out, f'))
    (h' : cellUpdate .butterfly lib cosn g inp = (.ok out', g')) : out.PointsAmong out' := by
  have hs : Scheme.butterfly ≠ .sqrt3 := by decide
  have hv := hn.valid
  obtain ⟨ρ, I, o, n, l⟩ := Inside.step hs hn hn hf hg h h' (Inside.start hmore)
  have hvo := (C04_output_valid hs hn hf h).1
  refine ⟨ρ, fun v w p q hp hq => I.inj v w (hvo.pos_lt hp) (hvo.pos_lt hq), fun v p hp => ?_⟩
  have hlv := hvo.pos_lt hp
  rcases Nat.lt_or_ge v inp.points.length with k | k
  · rw [o v k]
    have hq := hv.pos_eq k
    rw [C06_original_points_kept (by decide) hv.points_dense h _ _ hq] at hp
    exact (C06_original_points_kept (by decide) hv.points_dense h' _ _ hq).trans hp
  · obtain ⟨e, he, hm⟩ := l v k hlv
    have hm' := n e he v hm
    obtain ⟨x, p', h1, h2, h3, h4⟩ := cellUpdate_edgeValue hs hn hf h hm
    obtain ⟨y, q, k1, k2, k3, k4⟩ := cellUpdate_edgeValue hs hn hg h' hm'
    have k1' : y = e ∨ y = e.sym := k1
    have hxy : y = x ∨ y = x.sym := by
      rcases h1 with rfl | rfl <;> rcases k1' with rfl | rfl
      · exact Or.inl rfl
      · exact Or.inr rfl
      · exact Or.inr (Edge.sym_sym _).symm
      · exact Or.inl rfl
    have : schemePoint .butterfly K inp y = schemePoint .butterfly K inp x := by
      rcases hxy with rfl | rfl
      · rfl
      · exact schemePoint_sym hn (fun _ => hc) h2
    rw [this, h3] at k3
    rw [k4, ← Except.ok.inj k3, ← h4, hp]

section examples

/-- one cell of a tetrahedron against all of them -/
example (out out' : Mesh Q3 Nat) (f' g' : Filt) (h : cellUpdate .butterfly someLib cos0 (usedFilt [1]) tetraMesh = (.ok out, f'))
    (h' : cellUpdate .butterfly someLib cos0 (usedFilt []) tetraMesh = (.ok out', g')) : out.PointsAmong out' :=
  C105_more_butterfly (f := usedFilt [1]) (g := usedFilt []) (tetraMesh_needs _) tetraMesh_closed (by unfold Mesh.SelOK; decide)
    (selOK_nil _) (by unfold Mesh.SelectsMore; decide) h h'

/-- two edges against all edges, with Loop -/
example (out out' : Mesh Q3 Nat) (f' g' : Filt)
    (h : edgeUpdate .loop someLib cos0 (Filt.new.setEdges [some (1, 0), none, some (4, 2)]) patchMesh = (.ok out, f'))
    (h' : edgeUpdate .loop someLib cos0 Filt.new patchMesh = (.ok out', g')) : out.NotSmaller out' ∧ out.PointsAmong out' := by
  obtain ⟨h1, h2⟩ := C105_more_edges (sch := .loop) (f := Filt.new.setEdges [some (1, 0), none, some (4, 2)]) (g := Filt.new)
    (patchMesh_needs _) patchMesh_edges (fun _ he => by cases he)
    (by unfold DistinctEdges Mesh.selectedEdges Filt.setEdges; decide) (by unfold DistinctEdges; decide)
    (by unfold Mesh.SplitsMore; decide) h h'
  exact ⟨h1, h2 (fun hc => by cases hc)⟩

/-- without the condition of distinct edges this fails: a list with one edge named three times gives three points, a list with
that edge and one more gives two -/
theorem C105_repeats_excluded : ∃ (inp out out' : Mesh Q3 Nat) (f f' g g' : Filt), EdgeScheme.linear.toScheme.Needs inp ∧
    inp.EdgeSelOK f.edgeSel ∧ inp.EdgeSelOK g.edgeSel ∧ inp.SplitsMore f.edgeSel g.edgeSel ∧
    edgeUpdate .linear someLib cos0 f inp = (.ok out, f') ∧ edgeUpdate .linear someLib cos0 g inp = (.ok out', g') ∧
    ¬ out.NotSmaller out' := by
  have e1 : ((edgeUpdate .linear someLib cos0 (Filt.new.setEdges [some (1, 0), some (0, 1), some (1, 0)]) patchMesh).1.toOption.map
      fun m => m.points.length) = some 9 := by decide +kernel
  have e2 : ((edgeUpdate .linear someLib cos0 (Filt.new.setEdges [some (1, 0), some (4, 2)]) patchMesh).1.toOption.map
      fun m => m.points.length) = some 8 := by decide +kernel
  rcases h1 : edgeUpdate .linear someLib cos0 (Filt.new.setEdges [some (1, 0), some (0, 1), some (1, 0)]) patchMesh with ⟨_ | out, f'⟩
  · rw [h1] at e1; cases e1
  rcases h2 : edgeUpdate .linear someLib cos0 (Filt.new.setEdges [some (1, 0), some (4, 2)]) patchMesh with ⟨_ | out', g'⟩
  · rw [h2] at e2; cases e2
  rw [h1] at e1
  rw [h2] at e2
  refine ⟨patchMesh, out, out', _, f', _, g', patchMesh_needs _, ?_, ?_, ?_, h1, h2, fun hc => ?_⟩
  · have : ∀ x ∈ [some (1, 0), some (0, 1), some (1, 0)], ∀ e ∈ x, patchMesh.IsEdge e := by unfold Mesh.IsEdge; decide
    exact fun e he => this _ he e rfl
  · have : ∀ x ∈ [some (1, 0), some (4, 2)], ∀ e ∈ x, patchMesh.IsEdge e := by unfold Mesh.IsEdge; decide
    exact fun e he => this _ he e rfl
  · unfold Mesh.SplitsMore; decide
  · have := hc.points
    have k1 : out.points.length = 9 := Option.some.inj e1
    have k2 : out'.points.length = 8 := Option.some.inj e2
    omega

end examples
end Verif
