import Verif.Proofs.Result
import Verif.Properties.Samples
/-
C01 – C05, C14 – C16 for the face-split cell filters (Linear, Loop, ModifiedButterfly).
`f` is the state of the filter object before the run, whatever its history.
-/
namespace Verif
variable {K P D : Type} [Field K] [Zero P] [Add P] [SMul K P]
variable {sch : Scheme} {lib : QELib} {cosn : Nat → K} {f f' : Filt} {inp out : Mesh P D}

/-- C01. `Update()` returns, and every triangle it asks for is created: the output triangles are all the children of all
the input triangles. -/
theorem C01_face_split_completes (hs : sch ≠ .sqrt3) (lib : QELib) (cosn : Nat → K) (hn : sch.Needs inp)
    (hsel : inp.SelOK f.cells) :
    ∃ out f', cellUpdate sch lib cosn f inp = (.ok out, f') ∧
      out.tris = inp.tris.flatMap (Tri.children (inp.edgePoint f.cells)) ∧ out.cells.length = out.tris.length := by
  obtain ⟨out, f', h, R⟩ := cellUpdate_ok hs lib cosn hn hsel
  exact ⟨out, f', h, R.tris, by rw [R.cells_length, R.tris]⟩

example : ∃ out f', cellUpdate .loop someLib cos0 (usedFilt [1, 3]) patchMesh = (.ok out, f') ∧
    out.tris.length = 12 := by
  obtain ⟨out, f', h, h2, _⟩ := C01_face_split_completes (K := ℚ) (f := usedFilt [1, 3]) (by decide) someLib cos0
    (patchMesh_needs .loop) patchMesh_sel
  exact ⟨out, f', h, by rw [h2, patchMesh_ok.2.2.2]; decide⟩

/-- C02. Without a selection every triangle is replaced by four. -/
theorem C02_uniform_times_four (hs : sch ≠ .sqrt3) (hn : sch.Needs inp) (hf : f.cells = [])
    (h : cellUpdate sch lib cosn f inp = (.ok out, f')) : out.cells.length = 4 * inp.cells.length := by
  obtain ⟨R, -⟩ := cellUpdate_result hs hn (by rw [hf]; exact fun k hk => by cases hk) h
  rw [R.cells_length]
  have hall : ∀ t ∈ inp.tris, (t.children (inp.edgePoint f.cells)).length = 4 := by
    intro t ht
    apply children_all
    intro e he
    rw [edgePoint_isSome, hf]
    exact Or.inl (mem_dartsOf.2 ⟨t, by simpa [Mesh.selected] using ht, he⟩)
  have hlen : inp.tris.length = inp.cells.length := by
    obtain ⟨g, h1, _⟩ := hn.valid.tris_eq_map
    rw [h1, List.length_map]
  rw [← hlen]
  clear hlen R h
  revert hall
  change (∀ t ∈ inp.tris, (t.children (inp.edgePoint f.cells)).length = 4) →
    (inp.tris.flatMap (Tri.children (inp.edgePoint f.cells))).length = _
  generalize inp.edgePoint f.cells = μ
  induction inp.tris with
  | nil => intro _; rfl
  | cons t T ih =>
    intro hall
    rw [List.flatMap_cons, List.length_append, ih (fun t ht => hall t (by simp [ht])), hall t (by simp), List.length_cons]
    omega

example (out : Mesh Q3 Nat) (f' : Filt) (h : cellUpdate .butterfly someLib cos0 Filt.new tetraMesh = (.ok out, f')) :
    out.cells.length = 16 := C02_uniform_times_four (by decide) (tetraMesh_needs _) rfl h

/-- the edges that a triangle shares with the triangles of a list -/
def Tri.sharedWith (S : List Tri) (t : Tri) : List Edge :=
  t.darts.filter fun e => decide (e ∈ dartsOf S ∨ e.sym ∈ dartsOf S)

/-- C03. With a selection, a selected triangle is replaced by four triangles; another triangle by one more than the
number of edges it shares with selected ones; if there is none it is output unchanged. -/
theorem C03_selective_children (hs : sch ≠ .sqrt3) (hn : sch.Needs inp) (hsel : inp.SelOK f.cells) (hne : f.cells ≠ [])
    (h : cellUpdate sch lib cosn f inp = (.ok out, f')) :
    out.tris = inp.tris.flatMap (Tri.children (inp.edgePoint f.cells)) ∧
    (∀ k ∈ f.cells, ∀ t : Tri, (k, some t.cell) ∈ inp.cells → (t.children (inp.edgePoint f.cells)).length = 4) ∧
    ∀ S : List Tri, (∀ t, t ∈ S ↔ ∃ k ∈ f.cells, (k, some t.cell) ∈ inp.cells) → ∀ t ∈ inp.tris,
      (t.children (inp.edgePoint f.cells)).length = 1 + (t.sharedWith S).length ∧
      (t.sharedWith S = [] → t.children (inp.edgePoint f.cells) = [t]) := by
  obtain ⟨R, -⟩ := cellUpdate_result hs hn hsel h
  have hS : ∀ t, t ∈ inp.selected f.cells ↔ ∃ k ∈ f.cells, (k, some t.cell) ∈ inp.cells :=
    fun t => hn.valid.mem_selected hne
  refine ⟨R.tris, ?_, ?_⟩
  · intro k hk t ht
    apply children_all
    intro e he
    rw [edgePoint_isSome]
    exact Or.inl (mem_dartsOf.2 ⟨t, (hS t).2 ⟨k, hk, ht⟩, he⟩)
  · intro S hS' t ht
    have hd : ∀ e, e ∈ dartsOf (inp.selected f.cells) ↔ e ∈ dartsOf S := by
      intro e
      rw [mem_dartsOf, mem_dartsOf]
      constructor
      · rintro ⟨t, ht, he⟩; exact ⟨t, (hS' t).2 ((hS t).1 ht), he⟩
      · rintro ⟨t, ht, he⟩; exact ⟨t, (hS t).2 ((hS' t).1 ht), he⟩
    have hfil : t.darts.filter (fun e => (inp.edgePoint f.cells e).isSome) = t.sharedWith S := by
      unfold Tri.sharedWith
      apply List.filter_congr
      intro e _
      rw [Bool.eq_iff_iff, edgePoint_isSome, decide_eq_true_eq, hd, hd]
    refine ⟨by rw [children_length, hfil], ?_⟩
    intro hnil
    apply children_none
    intro e he
    rw [← hfil, List.filter_eq_nil_iff] at hnil
    simpa using hnil e he

example (out : Mesh Q3 Nat) (f' : Filt) (h : cellUpdate .linear someLib cos0 (usedFilt [1, 3]) patchMesh = (.ok out, f')) :
    out.tris = patch.flatMap (Tri.children (patchMesh.edgePoint [1, 3])) ∧
    (Tri.children (patchMesh.edgePoint [1, 3]) (0, 1, 2)).length = 3 := by
  obtain ⟨h1, _, h3⟩ := C03_selective_children (by decide) (patchMesh_needs _) patchMesh_sel (by decide) h
  rw [patchMesh_ok.2.2.2] at h1
  refine ⟨h1, ?_⟩
  have := (h3 [(1, 0, 3), (0, 2, 5)] (by
    intro t
    constructor
    · intro ht
      simp only [List.mem_cons, List.not_mem_nil, or_false] at ht
      rcases ht with rfl | rfl
      · exact ⟨1, by decide, by decide⟩
      · exact ⟨3, by decide, by decide⟩
    · rintro ⟨k, hk, ht⟩
      have h0 := patchMesh_ok.1.triAt_of_mem ht
      simp only [usedFilt, List.mem_cons, List.not_mem_nil, or_false] at hk
      rcases hk with rfl | rfl
      · have : patchMesh.triAt 1 = some (1, 0, 3) := by decide
        rw [this] at h0; cases h0; simp
      · have : patchMesh.triAt 3 = some (0, 2, 5) := by decide
        rw [this] at h0; cases h0; simp) (0, 1, 2) (by rw [patchMesh_ok.2.2.2]; decide)).1
  exact this.trans (by decide)

/-- C04. The output is a valid mesh again, and one that any of the filters accepts; an edge that received a point is no
edge of the output any more (no T-junctions). -/
theorem C04_output_valid (hs : sch ≠ .sqrt3) (hn : sch.Needs inp) (hsel : inp.SelOK f.cells)
    (h : cellUpdate sch lib cosn f inp = (.ok out, f')) :
    out.Valid ∧ (lib.Lawful → out.RingOK) ∧ (inp.NoIsolated → out.NoIsolated) ∧
    (lib.Lawful → inp.NoIsolated → ∀ sch' : Scheme, sch'.Needs out) ∧
    ∀ e m, inp.edgePoint f.cells e = some m → ¬ out.IsEdge e := by
  obtain ⟨R, hnew⟩ := cellUpdate_result hs hn hsel h
  have hv := hn.valid
  refine ⟨R.valid hv, R.ringOK hv, fun hi => R.noIsolated hi hnew,
    fun hl hi _ => ⟨R.valid hv, fun _ => R.ringOK hv hl, fun _ => R.noIsolated hi hnew⟩, ?_⟩
  intro e m hm he
  obtain ⟨e', he', heq⟩ := edgePoint_dart hv hm
  have hlt : e.1 < inp.points.length ∧ e.2 < inp.points.length := by
    have := hv.isEdge_lt (hv.isEdge_of_dart he')
    rcases heq with rfl | rfl
    · exact this
    · exact ⟨this.2, this.1⟩
  exact R.split_edge_gone hv hm hlt.1 hlt.2 he

example (out : Mesh Q3 Nat) (f' : Filt) (h : cellUpdate .loop someLib cos0 (usedFilt [2, 0, 2]) tetraMesh = (.ok out, f')) :
    out.Valid ∧ Scheme.loop.Needs out ∧ ¬ out.IsEdge (0, 1) := by
  obtain ⟨h1, _, _, h4, h5⟩ := C04_output_valid (by decide) (tetraMesh_needs _) tetraMesh_sel h
  exact ⟨h1, h4 someLib_lawful tetraMesh_ok.2.2.1 _, h5 (0, 1) 6 (by decide)⟩

/-- C05. The output points are numbered `0 … n + s - 1`, `n` being the number of input points and `s` the number of
edges of subdivided triangles.  These edges, and only these, have a new point; the ids `n … n + s - 1` are each used by
exactly one edge (in both directions), and the new point splits its edge in every triangle of the edge. -/
theorem C05_new_points (hs : sch ≠ .sqrt3) (hn : sch.Needs inp) (hsel : inp.SelOK f.cells)
    (h : cellUpdate sch lib cosn f inp = (.ok out, f')) :
    out.points.map Prod.fst = List.range out.points.length ∧
    (∀ e, (inp.edgePoint f.cells e).isSome ↔
      e ∈ dartsOf (inp.selected f.cells) ∨ e.sym ∈ dartsOf (inp.selected f.cells)) ∧
    (∀ es : List Edge, DistinctEdges es → (∀ e, (e ∈ es ∨ e.sym ∈ es) ↔
        (e ∈ dartsOf (inp.selected f.cells) ∨ e.sym ∈ dartsOf (inp.selected f.cells))) →
      out.points.length = inp.points.length + es.length) ∧
    (∀ e m, inp.edgePoint f.cells e = some m → inp.points.length ≤ m ∧ m < out.points.length) ∧
    (∀ m, inp.points.length ≤ m → m < out.points.length → ∃ e, inp.edgePoint f.cells e = some m ∧
      ∀ e', inp.edgePoint f.cells e' = some m ↔ e' = e ∨ e' = e.sym) ∧
    (∀ e m, inp.edgePoint f.cells e = some m → ∀ t ∈ inp.tris, e ∈ t.darts →
      (e.1, m) ∈ dartsOf (t.children (inp.edgePoint f.cells)) ∧
      (m, e.2) ∈ dartsOf (t.children (inp.edgePoint f.cells))) := by
  obtain ⟨R, hnew⟩ := cellUpdate_result hs hn hsel h
  have hv := hn.valid
  refine ⟨(R.valid hv).points_dense, fun e => edgePoint_isSome _ _ _, ?_, ?_, ?_, ?_⟩
  · intro es hd hes
    rw [R.points_length]
    simp only [List.length_append, List.length_map, List.length_range]
    rw [distinct_length_eq hd (pairwise_edgeList (inp.selected f.cells))]
    intro e; rw [hes, mem_edgeList]
  · intro e m hm
    rw [R.points_length]; exact R.fresh e m hm
  · intro m h1 h2
    rw [R.points_length] at h2
    obtain ⟨e, _, hm⟩ := hnew m h1 h2
    refine ⟨e, hm, fun e' => ⟨fun h' => R.label.inj e e' m hm h', ?_⟩⟩
    rintro (rfl | rfl)
    · exact hm
    · rw [R.label.sym]; exact hm
  · intro e m hm t _ he
    exact children_halves _ _ he hm

example (out : Mesh Q3 Nat) (f' : Filt) (h : cellUpdate .linear someLib cos0 (usedFilt [1, 3]) patchMesh = (.ok out, f')) :
    out.points.length = 12 := by
  obtain ⟨_, _, h3, _⟩ := C05_new_points (by decide) (patchMesh_needs _) patchMesh_sel h
  exact h3 (edgeList (patchMesh.selected [1, 3])) (pairwise_edgeList _) (mem_edgeList _)

/-- C14. Every output cell carries the data of the input cell whose triangle it is a child of (or none, if that cell has
none); no other id has data. -/
theorem C14_cell_data_inherited (hs : sch ≠ .sqrt3) (hn : sch.Needs inp) (hsel : inp.SelOK f.cells)
    (h : cellUpdate sch lib cosn f inp = (.ok out, f')) :
    (∀ k (d : Tri), (k, some d.cell) ∈ out.cells → ∃ j t, (j, some (Tri.cell t)) ∈ inp.cells ∧
      d ∈ t.children (inp.edgePoint f.cells) ∧ out.dataAt k = inp.dataAt j) ∧
    ∀ k, k ∉ out.cells.map Prod.fst → out.dataAt k = none := by
  obtain ⟨R, -⟩ := cellUpdate_result hs hn hsel h
  refine ⟨?_, ?_⟩
  · intro k d hk
    obtain ⟨x, hx, rfl⟩ := R.item_of_cell hk
    obtain ⟨t, ht, hd, _⟩ := mem_childItems.1 (List.mem_of_getElem? hx)
    refine ⟨x.1, t, ht, hd, ?_⟩
    rw [R.data k, hx]; rfl
  · intro k hk
    rw [R.data k]
    have : (childItems (inp.edgePoint f.cells) f.cells.isEmpty inp.cells)[k]? = none := by
      rw [List.getElem?_eq_none_iff]
      rw [R.cells_keys, List.mem_range] at hk
      rw [← childItems_tris _ f.cells.isEmpty, List.length_map] at hk
      exact Nat.not_lt.1 hk
    rw [this]; rfl

example (out : Mesh Q3 Nat) (f' : Filt) (h : cellUpdate .linear someLib cos0 (usedFilt [1, 3]) patchMesh = (.ok out, f'))
    (k : CId) (d : Tri) (hk : (k, some d.cell) ∈ out.cells) : ∃ j, out.dataAt k = patchMesh.dataAt j :=
  let ⟨j, _, _, _, hj⟩ := (C14_cell_data_inherited (by decide) (patchMesh_needs _) patchMesh_sel h).1 k d hk
  ⟨j, hj⟩

/-- C15. If every input cell has data then every output cell has, and there are as many data entries as cells. -/
theorem C15_cell_data_complete (hs : sch ≠ .sqrt3) (hn : sch.Needs inp) (hsel : inp.SelOK f.cells)
    (hd : ∀ k ∈ inp.cells.map Prod.fst, (inp.dataAt k).isSome)
    (h : cellUpdate sch lib cosn f inp = (.ok out, f')) :
    (∀ k ∈ out.cells.map Prod.fst, (out.dataAt k).isSome) ∧
    (out.cellData.getD []).map Prod.fst = out.cells.map Prod.fst := by
  obtain ⟨R, -⟩ := cellUpdate_result hs hn hsel h
  have hsome : ∀ k ∈ out.cells.map Prod.fst, (out.dataAt k).isSome := by
    intro k hk
    rw [R.data k]
    rw [R.cells_keys, List.mem_range, ← childItems_tris _ f.cells.isEmpty, List.length_map] at hk
    rw [List.getElem?_eq_getElem hk]
    obtain ⟨t, ht, _⟩ := mem_childItems.1 (List.getElem_mem hk)
    exact hd _ (List.mem_map.2 ⟨_, ht, rfl⟩)
  refine ⟨hsome, data_keys_eq R.dataSorted (R.valid hn.valid).cells_sorted ?_⟩
  intro k
  constructor
  · intro hk
    by_contra hc
    rw [(C14_cell_data_inherited hs hn hsel h).2 k hc] at hk
    cases hk
  · exact hsome k

example (out : Mesh Q3 Nat) (f' : Filt) (h : cellUpdate .loop someLib cos0 (usedFilt [2, 0, 2]) tetraMesh = (.ok out, f')) :
    ∀ k ∈ out.cells.map Prod.fst, (out.dataAt k).isSome :=
  (C15_cell_data_complete (by decide) (tetraMesh_needs _) tetraMesh_sel (by decide) h).1

/-- C16. After a uniform run the selection is empty.  After a selective run it lists, without repetition, exactly the
output cells made from triangles that were split into four, and it is not empty. -/
theorem C16_selection_after_run (hs : sch ≠ .sqrt3) (hn : sch.Needs inp) (hsel : inp.SelOK f.cells)
    (h : cellUpdate sch lib cosn f inp = (.ok out, f')) :
    (f.cells = [] → f'.cells = []) ∧
    (f.cells ≠ [] → f'.cells ≠ [] ∧ f'.cells.Nodup ∧ out.SelOK f'.cells ∧
      ∀ k (d : Tri), (k, some d.cell) ∈ out.cells → (k ∈ f'.cells ↔
        ∃ t ∈ inp.tris, d ∈ t.children (inp.edgePoint f.cells) ∧
          (t.children (inp.edgePoint f.cells)).length = 4)) := by
  obtain ⟨R, -⟩ := cellUpdate_result hs hn hsel h
  have hcells : f'.cells = pushed 0 (childItems (inp.edgePoint f.cells) f.cells.isEmpty inp.cells) := by
    rw [R.filt]
  have h4 : ∀ t : Tri, (t.children (inp.edgePoint f.cells)).length = 4 ↔ allSplit (inp.edgePoint f.cells) t = true := by
    intro t
    rw [allSplit_iff]
    constructor
    · intro hl
      rw [children_length] at hl
      have : (t.darts.filter fun e => (inp.edgePoint f.cells e).isSome).length = t.darts.length := by
        have : t.darts.length = 3 := rfl
        omega
      exact List.length_filter_eq_length_iff.1 this
    · exact children_all _ _
  refine ⟨?_, ?_⟩
  · intro he
    rw [hcells]
    apply List.eq_nil_iff_forall_not_mem.2
    intro k hk
    obtain ⟨i, x, _, h2, h3⟩ := mem_pushed.1 hk
    obtain ⟨t, _, _, hb⟩ := mem_childItems.1 (List.mem_of_getElem? h2)
    rw [hb, he] at h3
    simp at h3
  · intro hne
    have hu : f.cells.isEmpty = false := by simp [hne]
    have hmem : ∀ k, k ∈ f'.cells ↔ ∃ x, (childItems (inp.edgePoint f.cells) f.cells.isEmpty inp.cells)[k]? = some x ∧
        x.2.2 = true := by
      intro k
      rw [hcells, mem_pushed]
      constructor
      · rintro ⟨i, x, rfl, h2⟩; exact ⟨x, by rw [Nat.zero_add]; exact h2⟩
      · rintro ⟨x, h2⟩; exact ⟨k, x, (Nat.zero_add k).symm, h2⟩
    refine ⟨?_, ?_, ?_, ?_⟩
    · obtain ⟨k, ks, hk⟩ := List.exists_cons_of_ne_nil hne
      obtain ⟨t, ht, _⟩ := hn.valid.sel_tri hsel (k := k) (by rw [hk]; simp)
      have htS : t ∈ inp.selected f.cells := (hn.valid.mem_selected hne).2 ⟨k, by rw [hk]; simp, ht⟩
      have hall : allSplit (inp.edgePoint f.cells) t = true := by
        rw [allSplit_iff]
        intro e he
        rw [edgePoint_isSome]
        exact Or.inl (mem_dartsOf.2 ⟨t, htS, he⟩)
      have hlen := (h4 t).2 hall
      obtain ⟨d, hd⟩ := List.exists_mem_of_length_pos (l := t.children (inp.edgePoint f.cells)) (by rw [hlen]; omega)
      have hx : ((k, d, true) : Item) ∈ childItems (inp.edgePoint f.cells) f.cells.isEmpty inp.cells :=
        mem_childItems.2 ⟨t, ht, hd, by rw [hall, hu]; rfl⟩
      obtain ⟨i, hi⟩ := List.mem_iff_getElem?.1 hx
      exact List.ne_nil_of_mem ((hmem i).2 ⟨_, hi, rfl⟩)
    · rw [hcells]
      exact (pushed_sorted _ _).imp (fun h => Nat.ne_of_lt h)
    · intro k hk
      obtain ⟨x, hx, _⟩ := (hmem k).1 hk
      exact List.mem_map.2 ⟨_, R.cell_of_item hx, rfl⟩
    · intro k d hk
      obtain ⟨x, hx, rfl⟩ := R.item_of_cell hk
      obtain ⟨t, ht, hd, hb⟩ := mem_childItems.1 (List.mem_of_getElem? hx)
      rw [hmem k]
      constructor
      · rintro ⟨y, hy, hy2⟩
        rw [hx] at hy
        cases hy
        rw [hy2, hu] at hb
        refine ⟨t, hn.valid.mem_tris.2 ⟨_, ht⟩, hd, (h4 t).2 ?_⟩
        simpa using hb.symm
      · rintro ⟨t', ht', hd', h4'⟩
        refine ⟨x, hx, ?_⟩
        have : t = t' := by
          have hn' := (children_nondeg hn.valid.good R.label) x.2.1 (List.mem_flatMap.2 ⟨t', ht', hd'⟩)
          have hdart : (x.2.1.1, x.2.1.2.1) ∈ x.2.1.darts := by simp [Tri.darts]
          exact child_parent_unique hn.valid.good R.label (hn.valid.mem_tris.2 ⟨_, ht⟩) ht' hd hd' hdart hdart
        rw [hb, this, (h4 t').1 h4', hu]; rfl

example (out : Mesh Q3 Nat) (f' : Filt) (h : cellUpdate .linear someLib cos0 (usedFilt [1, 3]) patchMesh = (.ok out, f')) :
    f'.cells ≠ [] ∧ out.SelOK f'.cells :=
  let ⟨h1, _, h3, _⟩ := (C16_selection_after_run (by decide) (patchMesh_needs _) patchMesh_sel h).2 (by decide)
  ⟨h1, h3⟩

end Verif
