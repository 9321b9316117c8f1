import Verif.Proofs.Sqrt3Result
import Verif.Properties.Topology
/-
C11 – C18 for the SquareThree cell filter.
The hypothesis `… ≤ idMax` says that the ids of the new points stay below `max()` of the identifier type, the value that
the filter uses as a mark.
-/
namespace Verif
variable {K P D : Type} [Field K] [Zero P] [Add P] [SMul K P]
variable {lib : QELib} {cosn : Nat → K} {f f' : Filt} {inp out : Mesh P D}

/-- C11. `Update()` returns and every triangle it asks for is created: the output triangles are those of the √3 split.
Without a selection the number of cells is tripled; with one it grows by two per subdivided cell, and there is one new
point per entry of the list. -/
theorem C11_sqrt3_completes (lib : QELib) (cosn : Nat → K) (hv : inp.Valid) (hsel : inp.SelOK f.cells)
    (hmax : inp.points.length + (inp.selected f.cells).length ≤ idMax) :
    ∃ out f', cellUpdate .sqrt3 lib cosn f inp = (.ok out, f') ∧
      out.tris.Perm (inp.tris.flatMap (Tri.sq3 (inp.centreOf f.cells))) ∧ out.cells.length = out.tris.length ∧
      (f.cells = [] → out.cells.length = 3 * inp.cells.length ∧
        out.points.length = inp.points.length + inp.cells.length) ∧
      (f.cells ≠ [] → (∀ ks : List CId, ks.Nodup → (∀ k, k ∈ ks ↔ k ∈ f.cells) →
          out.cells.length = 3 * ks.length + (inp.cells.length - ks.length)) ∧
        out.points.length = inp.points.length + f.cells.length) := by
  obtain ⟨out, f', h, R⟩ := sqrt3Update_ok hv lib cosn hsel hmax
  refine ⟨out, f', h, R.tris hv, (R.valid hv).tris_length.symm, ?_, ?_⟩
  · intro hf
    have hall : inp.selected f.cells = inp.tris := by simp [Mesh.selected, hf]
    rw [R.cells_length hv, R.points_length]
    constructor
    · rw [List.filter_eq_self.2, hv.tris_length]
      · omega
      · intro t ht
        rw [centreOf_isSome hv ht (by simp [Tri.darts]), hall]
        exact ht
    · simp [hall, hv.tris_length]
  · intro hne
    constructor
    · intro ks hn hks
      rw [R.cells_length hv, selected_count hv hsel hne hn hks]
      have : ks.length ≤ inp.cells.length := by
        have h1 : ks.length ≤ (inp.cells.map Prod.fst).length :=
          (hn.subperm fun k hk => hsel k ((hks k).1 hk)).length_le
        rwa [List.length_map] at h1
      omega
    · rw [R.points_length]
      simp [selected_length hv hsel hne]

example : ∃ out f', cellUpdate .sqrt3 someLib cos0 (usedFilt [1, 3]) patchMesh = (.ok out, f') ∧
    out.cells.length = 8 ∧ out.points.length = 8 := by
  obtain ⟨out, f', h, _, _, _, h2⟩ := C11_sqrt3_completes (K := ℚ) (f := usedFilt [1, 3]) someLib cos0
    patchMesh_ok.1 patchMesh_sel (by decide)
  obtain ⟨h3, h4⟩ := h2 (by decide)
  exact ⟨out, f', h, h3 [1, 3] (by decide) (fun _ => Iff.rfl), h4⟩

/-- C12. The `i`-th subdivided cell receives the point `n + i`, at the mean of its corners; if no cell is listed twice,
this is the point it is joined to. -/
theorem C12_sqrt3_centroids {P : Type} [AddCommGroup P] [Module K P] {inp out : Mesh P D} (hv : inp.Valid) (hsel : inp.SelOK f.cells)
    (hmax : inp.points.length + (inp.selected f.cells).length ≤ idMax)
    (h : cellUpdate .sqrt3 lib cosn f inp = (.ok out, f')) {i : Nat} {a b c : PId}
    (hi : (inp.selected f.cells)[i]? = some (a, b, c)) :
    (∀ pa pb pc, inp.pos a = some pa → inp.pos b = some pb → inp.pos c = some pc →
      out.pos (inp.points.length + i) = some ((1 / 3 : K) • pa + (1 / 3 : K) • pb + (1 / 3 : K) • pc)) ∧
    (f.cells.Nodup → ∀ e ∈ Tri.darts (a, b, c), inp.centreOf f.cells e = some (inp.points.length + i)) := by
  have R := sqrt3Update_result hv hsel hmax h
  refine ⟨?_, fun hn e he => centreOf_getElem hv hn hi he⟩
  intro pa pb pc ha hb hc
  have hcoord : ∀ {v : PId} {p : P}, inp.pos v = some p → inp.coord v = p := by
    intro v p hp
    unfold Mesh.coord
    unfold Mesh.pos at hp
    rw [hp]; rfl
  unfold Mesh.pos
  rw [R.points, AMap.find?_dense, List.getElem?_append_right (by simp)]
  simp only [List.length_map, List.length_range, Nat.add_sub_cancel_left, List.getElem?_map, hi, Option.map_some,
    Mesh.centroid, hcoord ha, hcoord hb, hcoord hc, zero_add, smul_add]

example (out : Mesh Q3 Nat) (f' : Filt) (h : cellUpdate .sqrt3 someLib cos0 (usedFilt [1, 3]) patchMesh = (.ok out, f')) :
    out.pos 7 = some (-4/3, 2, 0) := by
  have := (C12_sqrt3_centroids patchMesh_ok.1 patchMesh_sel (by decide) h (i := 1) (a := 0) (b := 2) (c := 5)
    (by decide)).1 (0, 0, 0) (0, 4, 0) (-4, 2, 0) rfl rfl rfl
  refine this.trans ?_
  norm_num

/-- C13. The output is a valid mesh again; if no cell is listed twice, it is one that any of the filters accepts. -/
theorem C13_sqrt3_valid (hv : inp.Valid) (hsel : inp.SelOK f.cells)
    (hmax : inp.points.length + (inp.selected f.cells).length ≤ idMax)
    (h : cellUpdate .sqrt3 lib cosn f inp = (.ok out, f')) :
    out.Valid ∧ (lib.Lawful → out.RingOK) ∧ (f.cells.Nodup → inp.NoIsolated → out.NoIsolated) ∧
    (lib.Lawful → f.cells.Nodup → inp.NoIsolated → ∀ sch : Scheme, sch.Needs out) := by
  have R := sqrt3Update_result hv hsel hmax h
  have hiso : f.cells.Nodup → inp.NoIsolated → out.NoIsolated := by
    intro hn hi
    refine R.noIsolated hv hi ?_
    intro m h1 h2
    simp only [List.length_append, List.length_map, List.length_range] at h2
    have hlt : m - inp.points.length < (inp.selected f.cells).length := by
      exact Nat.sub_lt_left_of_lt_add h1 h2
    have hd : ∀ t : Tri, (t.1, t.2.1) ∈ t.darts := fun t => by simp [Tri.darts]
    refine ⟨((inp.selected f.cells)[m - inp.points.length].1, (inp.selected f.cells)[m - inp.points.length].2.1), ?_⟩
    rw [centreOf_getElem hv hn (List.getElem?_eq_getElem hlt) (hd _)]
    rw [Nat.add_sub_cancel' h1]
  exact ⟨R.valid hv, R.ringOK hv, hiso,
    fun hl hn hi _ => ⟨R.valid hv, fun _ => R.ringOK hv hl, fun _ => hiso hn hi⟩⟩

example (out : Mesh Q3 Nat) (f' : Filt) (h : cellUpdate .sqrt3 someLib cos0 (usedFilt [1, 3]) patchMesh = (.ok out, f')) :
    Scheme.loop.Needs out :=
  (C13_sqrt3_valid patchMesh_ok.1 patchMesh_sel (by decide) h).2.2.2 someLib_lawful (by decide) patchMesh_ok.2.2.1 _

/-- C14. Every output cell carries the data of the input cell it is made from; of two, the one with the smaller id.  No
other id has data. -/
theorem C14_cell_data_inherited_sqrt3 (hv : inp.Valid) (hsel : inp.SelOK f.cells)
    (hmax : inp.points.length + (inp.selected f.cells).length ≤ idMax)
    (h : cellUpdate .sqrt3 lib cosn f inp = (.ok out, f')) :
    (∀ k (d : Tri), (k, some d.cell) ∈ out.cells → ∃ j t, (j, some (Tri.cell t)) ∈ inp.cells ∧
      MadeFrom (inp.centreOf f.cells) t d ∧
      (∀ j' (t' : Tri), (j', some t'.cell) ∈ inp.cells → MadeFrom (inp.centreOf f.cells) t' d → j ≤ j') ∧
      out.dataAt k = inp.dataAt j) ∧
    ∀ k, k ∉ out.cells.map Prod.fst → out.dataAt k = none := by
  have R := sqrt3Update_result hv hsel hmax h
  refine ⟨?_, ?_⟩
  · intro k d hk
    obtain ⟨x, hx, rfl⟩ := R.cells_mem.1 hk
    obtain ⟨t, h1, h2, h3, _⟩ := R.madeFrom hv hx
    refine ⟨x.1, t, h1, h2, h3, ?_⟩
    rw [R.data k, hx]; rfl
  · intro k hk
    rw [R.data k]
    rw [R.cells_keys, List.mem_range] at hk
    rw [List.getElem?_eq_none (Nat.not_lt.1 hk)]; rfl

example (out : Mesh Q3 Nat) (f' : Filt) (h : cellUpdate .sqrt3 someLib cos0 Filt.new patchMesh = (.ok out, f'))
    (k : CId) (d : Tri) (hk : (k, some d.cell) ∈ out.cells) : ∃ j, out.dataAt k = patchMesh.dataAt j :=
  let ⟨j, _, _, _, _, hj⟩ := (C14_cell_data_inherited_sqrt3 patchMesh_ok.1 (selOK_nil _) (by decide) h).1 k d hk
  ⟨j, hj⟩

/-- C15. If every input cell has data then every output cell has, and there are as many data entries as cells. -/
theorem C15_cell_data_complete_sqrt3 (hv : inp.Valid) (hsel : inp.SelOK f.cells)
    (hmax : inp.points.length + (inp.selected f.cells).length ≤ idMax)
    (hd : ∀ k ∈ inp.cells.map Prod.fst, (inp.dataAt k).isSome)
    (h : cellUpdate .sqrt3 lib cosn f inp = (.ok out, f')) :
    (∀ k ∈ out.cells.map Prod.fst, (out.dataAt k).isSome) ∧
    (out.cellData.getD []).map Prod.fst = out.cells.map Prod.fst := by
  have R := sqrt3Update_result hv hsel hmax h
  have hsome : ∀ k ∈ out.cells.map Prod.fst, (out.dataAt k).isSome := by
    intro k hk
    rw [R.data k]
    rw [R.cells_keys, List.mem_range] at hk
    obtain ⟨t, ht, _⟩ := R.madeFrom hv (List.getElem?_eq_getElem hk)
    rw [List.getElem?_eq_getElem hk]
    exact hd _ (List.mem_map.2 ⟨_, ht, rfl⟩)
  refine ⟨hsome, data_keys_eq R.dataSorted (R.valid hv).cells_sorted ?_⟩
  intro k
  constructor
  · intro hk
    by_contra hc
    rw [(C14_cell_data_inherited_sqrt3 hv hsel hmax h).2 k hc] at hk
    cases hk
  · exact hsome k

example (out : Mesh Q3 Nat) (f' : Filt) (h : cellUpdate .sqrt3 someLib cos0 (usedFilt [2, 0, 2]) tetraMesh = (.ok out, f')) :
    ∀ k ∈ out.cells.map Prod.fst, (out.dataAt k).isSome :=
  (C15_cell_data_complete_sqrt3 tetraMesh_ok.1 tetraMesh_sel (by decide) (by decide) h).1

/-- C16. After a uniform run the selection is empty.  After a selective run it lists, without repetition, exactly the
output cells made from a selected cell, and it is not empty. -/
theorem C16_selection_after_run_sqrt3 (hv : inp.Valid) (hsel : inp.SelOK f.cells)
    (hmax : inp.points.length + (inp.selected f.cells).length ≤ idMax)
    (h : cellUpdate .sqrt3 lib cosn f inp = (.ok out, f')) :
    (f.cells = [] → f'.cells = []) ∧
    (f.cells ≠ [] → f'.cells ≠ [] ∧ f'.cells.Nodup ∧ out.SelOK f'.cells ∧
      ∀ k (d : Tri), (k, some d.cell) ∈ out.cells → (k ∈ f'.cells ↔
        ∃ j ∈ f.cells, ∃ t : Tri, (j, some t.cell) ∈ inp.cells ∧ MadeFrom (inp.centreOf f.cells) t d)) := by
  have R := sqrt3Update_result hv hsel hmax h
  have hmem : ∀ k, k ∈ f'.cells ↔ ∃ x, (sq3Items (inp.centreOf f.cells) f.cells.isEmpty []
      (sq3Jobs (inp.centreOf f.cells) inp.cells))[k]? = some x ∧ x.2.2 = true := by
    intro k
    rw [R.cells, mem_pushed]
    constructor
    · rintro ⟨i, x, rfl, h2⟩; exact ⟨x, by rw [Nat.zero_add]; exact h2⟩
    · rintro ⟨x, h2⟩; exact ⟨k, x, (Nat.zero_add k).symm, h2⟩
  refine ⟨?_, ?_⟩
  · intro he
    apply List.eq_nil_iff_forall_not_mem.2
    intro k hk
    obtain ⟨x, h2, h3⟩ := (hmem k).1 hk
    obtain ⟨t, _, _, _, hb⟩ := R.madeFrom hv h2
    rw [hb, he] at h3
    simp at h3
  · intro hne
    have hu : f.cells.isEmpty = false := by simp [hne]
    have hiff : ∀ k (d : Tri), (k, some d.cell) ∈ out.cells → (k ∈ f'.cells ↔
        ∃ j ∈ f.cells, ∃ t : Tri, (j, some t.cell) ∈ inp.cells ∧ MadeFrom (inp.centreOf f.cells) t d) := by
      intro k d hk
      obtain ⟨x, hx, rfl⟩ := R.cells_mem.1 hk
      obtain ⟨t, h1, h2, _, hb⟩ := R.madeFrom hv hx
      have ht : t ∈ inp.tris := hv.mem_tris.2 ⟨_, h1⟩
      rw [hmem k]
      rw [hu, Bool.not_false, Bool.and_true] at hb
      have hd0 : (t.1, t.2.1) ∈ t.darts := by simp [Tri.darts]
      constructor
      · rintro ⟨y, hy, hy2⟩
        rw [hx] at hy
        cases hy
        rw [hb, centreOf_isSome hv ht hd0, hv.mem_selected hne] at hy2
        obtain ⟨j, hj, hj'⟩ := hy2
        exact ⟨j, hj, t, hj', h2⟩
      · rintro ⟨j, hj, t', hj', hm⟩
        refine ⟨x, hx, ?_⟩
        rw [hb]
        by_contra hc
        have h0 : inp.centreOf f.cells (t.1, t.2.1) = none := by simpa using hc
        -- `t` is kept, so `x` is `t`, and `t'` is a subdivided triangle
        have ht' : t' ∈ inp.tris := hv.mem_tris.2 ⟨_, hj'⟩
        have hsel' : t' ∈ inp.selected f.cells := (hv.mem_selected hne).2 ⟨j, hj, hj'⟩
        have hall : ∀ e ∈ t'.darts, (inp.centreOf f.cells e).isSome := fun e he => (centreOf_isSome hv ht' he).2 hsel'
        have hxt : x.2.1 = t := by
          rcases h2 with ⟨h2, _⟩ | ⟨e, he, v, h2, _⟩
          · exact h2
          · rw [R.centres.same t ht e he _ hd0, h0] at h2; cases h2
        rcases hm with ⟨_, hm⟩ | ⟨e, he, v, h3, h4⟩
        · have := hall (t'.1, t'.2.1) (by simp [Tri.darts])
          rw [hm _ (by simp [Tri.darts])] at this; cases this
        · rw [hxt] at h4
          rcases h4 with h4 | ⟨v', h5, h4⟩
          · exact sq3_keep_piece R.centres ht h0 h3 hd0 (by rw [← h4]; exact hd0)
          · exact sq3_keep_piece R.centres ht h0 h5 hd0 (by rw [← h4]; exact hd0)
    refine ⟨?_, ?_, ?_, hiff⟩
    · obtain ⟨j, js, hj⟩ := List.exists_cons_of_ne_nil hne
      obtain ⟨t, ht, _⟩ := hv.sel_tri hsel (k := j) (by rw [hj]; simp)
      have htT : t ∈ inp.tris := hv.mem_tris.2 ⟨_, ht⟩
      have htS : t ∈ inp.selected f.cells := (hv.mem_selected hne).2 ⟨j, by rw [hj]; simp, ht⟩
      have hd0 : (t.1, t.2.1) ∈ t.darts := by simp [Tri.darts]
      obtain ⟨v, hv'⟩ := Option.isSome_iff_exists.1 ((centreOf_isSome hv htT hd0).2 htS)
      have hd : sq3Piece (inp.centreOf f.cells) v (t.1, t.2.1) ∈ out.tris :=
        (R.mem_tris hv).2 ((mem_sq3 R.centres).2 (Or.inr ⟨_, v, hv', rfl⟩))
      obtain ⟨k, hk⟩ := (R.valid hv).mem_tris.1 hd
      exact List.ne_nil_of_mem ((hiff k _ hk).2 ⟨j, by rw [hj]; simp, t, ht, Or.inr ⟨_, hd0, v, hv', Or.inl rfl⟩⟩)
    · rw [R.cells]
      exact (pushed_sorted _ _).imp (fun h => Nat.ne_of_lt h)
    · intro k hk
      obtain ⟨x, hx, _⟩ := (hmem k).1 hk
      exact List.mem_map.2 ⟨_, R.cells_mem.2 ⟨x, hx, rfl⟩, rfl⟩

example (out : Mesh Q3 Nat) (f' : Filt) (h : cellUpdate .sqrt3 someLib cos0 (usedFilt [1, 3]) patchMesh = (.ok out, f')) :
    f'.cells ≠ [] ∧ out.SelOK f'.cells :=
  let ⟨h1, _, h3, _⟩ := (C16_selection_after_run_sqrt3 patchMesh_ok.1 patchMesh_sel (by decide) h).2 (by decide)
  ⟨h1, h3⟩

/-- C17. SquareThree preserves points - edges + cells, if no cell is listed twice. -/
theorem C17_euler_preserved_sqrt3 (hv : inp.Valid) (hsel : inp.SelOK f.cells)
    (hmax : inp.points.length + (inp.selected f.cells).length ≤ idMax) (hn : f.cells.Nodup)
    (h : cellUpdate .sqrt3 lib cosn f inp = (.ok out, f')) : out.euler = inp.euler := by
  have R := sqrt3Update_result hv hsel hmax h
  have hcount : (inp.tris.filter fun t => (inp.centreOf f.cells (t.1, t.2.1)).isSome).length =
      (inp.selected f.cells).length := by
    by_cases hne : f.cells = []
    · have hall : inp.selected f.cells = inp.tris := by simp [Mesh.selected, hne]
      rw [hall, List.filter_eq_self.2]
      intro t ht
      rw [centreOf_isSome hv ht (by simp [Tri.darts]), hall]
      exact ht
    · rw [selected_count hv hsel hne hn (fun k => Iff.rfl), selected_length hv hsel hne]
  unfold Mesh.euler
  rw [R.edges_length hv, R.cells_length hv, R.points_length, hcount]
  simp only [List.length_append, List.length_map, List.length_range]
  push_cast
  ring

example (out : Mesh Q3 Nat) (f' : Filt) (h : cellUpdate .sqrt3 someLib cos0 Filt.new tetraMesh = (.ok out, f')) :
    out.euler = 2 :=
  (C17_euler_preserved_sqrt3 tetraMesh_ok.1 (selOK_nil _) (by decide) (by decide) h).trans (by decide)

/-- C18. SquareThree does not change the boundary. -/
theorem C18_boundary_preserved_sqrt3 (hv : inp.Valid) (hsel : inp.SelOK f.cells)
    (hmax : inp.points.length + (inp.selected f.cells).length ≤ idMax)
    (h : cellUpdate .sqrt3 lib cosn f inp = (.ok out, f')) :
    (∀ e, out.IsBoundary e ↔ inp.IsBoundary e) ∧ (inp.Closed ↔ out.Closed) := by
  have R := sqrt3Update_result hv hsel hmax h
  have hb : ∀ e, out.IsBoundary e ↔ inp.IsBoundary e := by
    intro e
    unfold Mesh.IsBoundary
    rw [← mem_boundaryOf, ← mem_boundaryOf]
    exact R.boundary hv
  exact ⟨hb, fun hc e he => hc e ((hb e).1 he), fun hc e he => hc e ((hb e).2 he)⟩

example (out : Mesh Q3 Nat) (f' : Filt) (h : cellUpdate .sqrt3 someLib cos0 (usedFilt [1, 3]) patchMesh = (.ok out, f')) :
    out.IsBoundary (0, 3) := by
  refine ((C18_boundary_preserved_sqrt3 patchMesh_ok.1 patchMesh_sel (by decide) h).1 _).2 ⟨?_, ?_⟩ <;>
    rw [patchMesh_ok.2.2.2] <;> decide

end Verif
