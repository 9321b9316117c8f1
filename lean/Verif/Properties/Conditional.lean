import Verif.Proofs.Conditional
/-
C28 – C31, C34: the criteria and the conditional filter.  `c` is the state of the conditional filter object (inner
filter and list) before the run, whatever its history; `fuel` bounds the number of iterations.
-/
namespace Verif
set_option linter.unusedSectionVars false
variable {K P D : Type} [Field K] [Zero P] [Add P] [SMul K P] [LinearOrder K]

theorem Mesh.Valid.allTriangles {m : Mesh P D} (h : m.Valid) : m.AllTriangles := by
  intro c hc
  obtain ⟨t, ht, -⟩ := h.cells_tri c hc
  rw [ht]; rfl

theorem Mesh.Valid.cornersExist {m : Mesh P D} (h : m.Valid) : m.CornersExist := by
  intro t ht v hv
  rw [h.pos_eq (h.verts_lt ht hv)]; rfl

theorem Mesh.Valid.endsExist {m : Mesh P D} (h : m.Valid) : m.EndsExist := by
  intro e he
  have := h.isEdge_lt (e := e) (Or.inl he)
  rw [h.pos_eq this.1, h.pos_eq this.2]
  exact ⟨rfl, rfl⟩

/-- twice the area of the shadow of a triangle in the xy-plane -/
def shadow (a b c : Q3) : ℚ := |(b.1 - a.1) * (c.2.1 - a.2.1) - (b.2.1 - a.2.1) * (c.1 - a.1)|

/-- a distance in the xy-plane -/
def taxi (a b : Q3) : ℚ := |b.1 - a.1| + |b.2.1 - a.2.1|

/-- C28. On a mesh of triangles, `Compute` of the area criterion returns exactly the ids of the cells that are larger than
the threshold, in increasing order, whatever the list held before. -/
theorem C28_area_exact (area : P → P → P → K) (A : K) {m : Mesh P D} (hs : (m.cells.map Prod.fst).Pairwise (· < ·))
    (ha : m.AllTriangles) (hp : m.CornersExist) (old : List CId) :
    ∃ l, areaCompute area A m old = (.ok (), l) ∧ l.Pairwise (· < ·) ∧ ∀ k, k ∈ l ↔ m.TooLarge area A k := by
  obtain ⟨l, h1, h2, h3⟩ := areaCompute_ok (area := area) (A := A) hs ha hp old
  exact ⟨l, h1, hs.sublist h2, h3⟩

example : ∃ l, areaCompute shadow 16 patchMesh [9, 9] = (.ok (), l) ∧ l.Pairwise (· < ·) ∧
    ∀ k, k ∈ l ↔ patchMesh.TooLarge shadow 16 k :=
  C28_area_exact _ _ patchMesh_ok.1.cells_sorted patchMesh_ok.1.allTriangles patchMesh_ok.1.cornersExist _

example : areaCompute shadow 15 patchMesh [9, 9] = (.ok (), [0, 1, 2, 3]) ∧
    areaCompute shadow 16 patchMesh [9, 9] = (.ok (), []) := by
  constructor <;> decide +kernel

/-- C29. `Compute` of the length criterion returns exactly the edges that are longer than the threshold: a sublist of the
edges of the mesh, so that none is listed twice, whatever the list held before. -/
theorem C29_length_exact (len : P → P → K) (L : K) {m : Mesh P D} (hc : m.hasEdgeCells = true) (he : m.EndsExist)
    (old : List (Option Edge)) : ∃ l : List Edge, lengthCompute len L m old = (.ok (), l.map some) ∧
      l.Sublist m.edges ∧ (∀ e, e ∈ l ↔ e ∈ m.edges ∧ m.TooLong len L e) ∧ (DistinctEdges m.edges → DistinctEdges l) := by
  obtain ⟨l, h1, h2, h3⟩ := lengthCompute_ok (len := len) (L := L) hc he old
  exact ⟨l, h1, h2, h3, fun hd => List.Pairwise.sublist h2 hd⟩

/-- C29: without edge cells `Compute` throws. -/
theorem C29_no_edges (len : P → P → K) (L : K) {m : Mesh P D} (hc : m.hasEdgeCells = false) (old : List (Option Edge)) :
    lengthCompute len L m old = (.error (.exc .noEdges), []) := by
  unfold lengthCompute
  rw [hc]
  rfl

example : ∃ l : List Edge, lengthCompute taxi 4 patchMesh [none] = (.ok (), l.map some) ∧
      l.Sublist patchMesh.edges ∧ (∀ e, e ∈ l ↔ e ∈ patchMesh.edges ∧ patchMesh.TooLong taxi 4 e) ∧
      (DistinctEdges patchMesh.edges → DistinctEdges l) :=
  C29_length_exact _ _ patchMesh_ok.1.has_edge_cells patchMesh_ok.1.endsExist _

example : (lengthCompute taxi 4 patchMesh [none]).2 = [some (1, 2), some (0, 3), some (3, 1), some (2, 5), some (5, 0)] := by
  decide +kernel

section
variable {lib : QELib} {cosn : Nat → K} {inp out : Mesh P D} {fuel : Nat}

/-- C30 for cells: whatever the mesh, the scheme and the history, when `Update()` of the conditional filter returns, its
output consists of triangles and none of them is larger than the threshold; the list is left empty. -/
theorem C30_area_postcondition {sch : Scheme} {area : P → P → P → K} {A : K} {c c' : Cond Filt CId}
    (h : condGenerate lib (condCellUpd sch lib cosn) (some (areaCompute area A)) fuel c inp = some (.ok out, c')) :
    out.AllTriangles ∧ out.CornersExist ∧ (∀ k, ¬ out.TooLarge area A k) ∧ c'.sel = [] := by
  obtain ⟨h1, old, h2⟩ := condGenerate_ok_inv h
  obtain ⟨h3, h4, h5⟩ := areaCompute_empty h2
  exact ⟨h3, h4, h5, h1⟩

/-- C30 for edges. -/
theorem C30_length_postcondition {sch : EdgeScheme} {len : P → P → K} {L : K} {c c' : Cond Filt (Option Edge)}
    (h : condGenerate lib (condEdgeUpd sch lib cosn) (some (lengthCompute len L)) fuel c inp = some (.ok out, c')) :
    out.EndsExist ∧ (∀ e ∈ out.edges, ¬ out.TooLong len L e) ∧ c'.sel = [] := by
  obtain ⟨h1, old, h2⟩ := condGenerate_ok_inv h
  obtain ⟨h3, h4⟩ := lengthCompute_empty h2
  exact ⟨h3, h4, h1⟩

/-- the call has returned normally -/
def returned {α β : Type} : Option (Except Fail α × β) → Bool
  | some (.ok _, _) => true
  | _ => false

example : returned (condGenerate someLib (condCellUpd .linear someLib cos0) (some (areaCompute shadow 4)) 1
      ⟨usedFilt [1, 3], [5]⟩ patchMesh) = true ∧
    returned (condGenerate someLib (condCellUpd .linear someLib cos0) (some (areaCompute shadow 3)) 1
      ⟨usedFilt [1, 3], [5]⟩ patchMesh) = false ∧
    returned (condGenerate someLib (condEdgeUpd .linear someLib cos0) (some (lengthCompute taxi 4)) 3
      ⟨Filt.new, [none]⟩ patchMesh) = true := by
  refine ⟨?_, ?_, ?_⟩ <;> decide +kernel

/-- C31 for cells: when no cell is larger than the threshold, `Update()` returns without an iteration, and the output has
the points, the triangles and the edges of the input; the inner filter has not been touched. -/
theorem C31_area_no_op {sch : Scheme} {area : P → P → P → K} {A : K} (hv : inp.Valid)
    (hA : ∀ k, ¬ inp.TooLarge area A k) (lib : QELib) (cosn : Nat → K) (fuel : Nat) (c : Cond Filt CId) :
    ∃ out, condGenerate lib (condCellUpd sch lib cosn) (some (areaCompute area A)) fuel c inp =
        some (.ok out, ⟨c.inner, []⟩) ∧
      out.points = inp.points ∧ out.tris = inp.tris ∧ out.edges = inp.edges ∧ out.Valid := by
  have hv' := copyGeometry_valid lib hv
  obtain ⟨l, h1, -, h2⟩ := C28_area_exact area A hv'.cells_sorted hv'.allTriangles hv'.cornersExist c.sel
  have hl : l = [] := by
    rw [List.eq_nil_iff_forall_not_mem]
    intro k hk
    obtain ⟨t, pa, pb, pc, h3, h4, h5, h6, h7⟩ := (h2 k).1 hk
    have ht : t ∈ inp.tris := by
      rw [← copyGeometry_tris lib hv]; exact hv'.mem_tris.2 ⟨k, h3⟩
    obtain ⟨k', hk'⟩ := hv.mem_tris.1 ht
    simp only [Mesh.pos, copyGeometry_points lib hv] at h4 h5 h6
    exact hA k' ⟨t, pa, pb, pc, hk', h4, h5, h6, h7⟩
  subst hl
  refine ⟨copyGeometry lib inp, ?_, copyGeometry_points lib hv, copyGeometry_tris lib hv, rfl, hv'⟩
  unfold condGenerate
  simp only [h1]
  exact condLoop_done rfl

/-- C31 for edges. -/
theorem C31_length_no_op {sch : EdgeScheme} {len : P → P → K} {L : K} (hv : inp.Valid)
    (hL : ∀ e ∈ inp.edges, ¬ inp.TooLong len L e) (lib : QELib) (cosn : Nat → K) (fuel : Nat) (c : Cond Filt (Option Edge)) :
    ∃ out, condGenerate lib (condEdgeUpd sch lib cosn) (some (lengthCompute len L)) fuel c inp =
        some (.ok out, ⟨c.inner, []⟩) ∧
      out.points = inp.points ∧ out.tris = inp.tris ∧ out.edges = inp.edges ∧ out.Valid := by
  have hv' := copyGeometry_valid lib hv
  obtain ⟨l, h1, -, h2, -⟩ := C29_length_exact len L hv'.has_edge_cells hv'.endsExist c.sel
  have hl : l = [] := by
    rw [List.eq_nil_iff_forall_not_mem]
    intro e he
    obtain ⟨h3, p, q, h4, h5, h6⟩ := (h2 e).1 he
    simp only [Mesh.pos, copyGeometry_points lib hv] at h4 h5
    exact hL e h3 ⟨p, q, h4, h5, h6⟩
  subst hl
  refine ⟨copyGeometry lib inp, ?_, copyGeometry_points lib hv, copyGeometry_tris lib hv, rfl, hv'⟩
  unfold condGenerate
  simp only [h1]
  exact condLoop_done rfl

example : ∃ out, condGenerate someLib (condCellUpd .loop someLib cos0) (some (areaCompute shadow 16)) 0
      ⟨usedFilt [1, 3], [5]⟩ patchMesh = some (.ok out, ⟨usedFilt [1, 3], []⟩) ∧
    out.points = patchMesh.points ∧ out.tris = patchMesh.tris ∧ out.edges = patchMesh.edges ∧ out.Valid := by
  refine C31_area_no_op patchMesh_ok.1 ?_ someLib cos0 0 ⟨usedFilt [1, 3], [5]⟩
  have : areaCompute shadow 16 patchMesh [] = (.ok (), []) := by decide +kernel
  exact (areaCompute_empty this).2.2

end

section diverge
variable {lib : QELib} {inp : Mesh P D}

/-- C34 is false for cells: with a negative threshold the loop does not end after any number of iterations, on every
valid mesh that has a cell, for every area function without negative values, every scheme of the face split and every
history. -/
theorem C34_negative_area_refuted {sch : Scheme} (cosn : Nat → K) (hs : sch ≠ .sqrt3)
    (hl : sch = .loop ∨ sch = .butterfly → lib.Lawful) (hv : inp.Valid) (hi : sch = .loop → inp.NoIsolated)
    (hne : inp.cells ≠ []) {area : P → P → P → K} {A : K} (hA : ∀ a b c, A < area a b c) (c : Cond Filt CId) (n : Nat) :
    condGenerate lib (condCellUpd sch lib cosn) (some (areaCompute area A)) n c inp = none := by
  have hT : inp.tris ≠ [] := by
    obtain ⟨g, h1, -⟩ := hv.tris_eq_map
    rw [h1]; simpa using hne
  -- the criterion lists every cell
  have hcrit : ∀ (m : Mesh P D) (old : List CId), m.Valid → m.tris ≠ [] → ∃ l, areaCompute area A m old = (.ok (), l) ∧
      m.SelOK l ∧ l ≠ [] := by
    intro m old hm hmT
    obtain ⟨l, h1, -, h2⟩ := C28_area_exact area A hm.cells_sorted hm.allTriangles hm.cornersExist old
    refine ⟨l, h1, fun k hk => TooLarge.mem ((h2 k).1 hk), ?_⟩
    obtain ⟨t, ht⟩ := List.exists_mem_of_ne_nil _ hmT
    obtain ⟨k, hk⟩ := hm.mem_tris.1 ht
    have hk' : k ∈ l := (h2 k).2 ⟨t, _, _, _, hk, hm.pos_eq (hm.verts_lt ht (by simp [Tri.verts])),
      hm.pos_eq (hm.verts_lt ht (by simp [Tri.verts])), hm.pos_eq (hm.verts_lt ht (by simp [Tri.verts])), hA _ _ _⟩
    exact List.ne_nil_of_mem hk'
  have hn := copyGeometry_needs (lib := lib) hv hl hi
  obtain ⟨l, h1, h2, h3⟩ := hcrit _ c.sel hn.valid (by rw [copyGeometry_tris lib hv]; exact hT)
  unfold condGenerate
  simp only [h1]
  refine condLoop_diverges (fun c cur => sch.Needs cur ∧ cur.tris ≠ [] ∧ cur.SelOK c.sel ∧ c.sel ≠ []) (fun _ _ h => h.2.2.2)
    ?_ n ⟨hn, by rw [copyGeometry_tris lib hv]; exact hT, h2, h3⟩
  rintro c cur ⟨k1, k2, k3, k4⟩
  obtain ⟨m, f', h4, -, h5, h6⟩ := condCellUpd_ok cosn hs hl k1 k3 c.inner
  have hmT : m.tris ≠ [] := by
    rw [h6]
    obtain ⟨t, ht⟩ := List.exists_mem_of_ne_nil _ k2
    obtain ⟨d, hd, -⟩ := children_has_corner (cur.edgePoint c.sel) t (v := t.1) (by simp [Tri.verts])
    exact List.ne_nil_of_mem (List.mem_flatMap.2 ⟨t, ht, hd⟩)
  obtain ⟨l, h7, h8, h9⟩ := hcrit m c.sel h5.valid hmT
  exact ⟨m, f', l, h4, h7, h5, hmT, h8, h9⟩

example (n : Nat) : condGenerate someLib (condCellUpd .loop someLib cos0) (some (areaCompute shadow (-1))) n
    ⟨Filt.new, []⟩ patchMesh = none :=
  C34_negative_area_refuted cos0 (by decide) (fun _ => someLib_lawful) patchMesh_ok.1 (fun _ => patchMesh_ok.2.2.1)
    (by decide) (fun _ _ _ => lt_of_lt_of_le (by norm_num) (abs_nonneg _)) _ n

/-- C34 is false for edges. -/
theorem C34_negative_length_refuted {sch : EdgeScheme} (cosn : Nat → K)
    (hl : sch = .loop ∨ sch = .butterfly → lib.Lawful) (hv : inp.Valid) (hi : sch = .loop → inp.NoIsolated)
    (hne : inp.cells ≠ []) {len : P → P → K} {L : K} (hL : ∀ a b, L < len a b) (c : Cond Filt (Option Edge)) (n : Nat) :
    condGenerate lib (condEdgeUpd sch lib cosn) (some (lengthCompute len L)) n c inp = none := by
  have hT : inp.tris ≠ [] := by
    obtain ⟨g, h1, -⟩ := hv.tris_eq_map
    rw [h1]; simpa using hne
  have hcrit : ∀ (m : Mesh P D) (old : List (Option Edge)), m.Valid → m.tris ≠ [] → ∃ l : List Edge,
      lengthCompute len L m old = (.ok (), l.map some) ∧ (∀ e ∈ l, m.IsEdge e) ∧ DistinctEdges l ∧ l ≠ [] := by
    intro m old hm hmT
    obtain ⟨l, h1, -, h2, h3⟩ := C29_length_exact len L hm.has_edge_cells hm.endsExist old
    refine ⟨l, h1, fun e he => Or.inl ((h2 e).1 he).1, h3 hm.edges_once, ?_⟩
    obtain ⟨t, ht⟩ := List.exists_mem_of_ne_nil _ hmT
    have hE : m.IsEdge (t.1, t.2.1) := hm.isEdge_of_dart (mem_dartsOf.2 ⟨t, ht, by simp [Tri.darts]⟩)
    have key : ∀ e ∈ m.edges, e ∈ l := fun e he => (h2 e).2 ⟨he, _, _, hm.pos_eq (hm.isEdge_lt (Or.inl he)).1,
      hm.pos_eq (hm.isEdge_lt (Or.inl he)).2, hL _ _⟩
    rcases hE with hE | hE
    · exact List.ne_nil_of_mem (key _ hE)
    · exact List.ne_nil_of_mem (key _ hE)
  have hl' : sch.toScheme = .loop ∨ sch.toScheme = .butterfly → lib.Lawful := by
    intro hb
    apply hl
    cases sch with
    | linear => rcases hb with hb | hb <;> cases hb
    | loop => exact Or.inl rfl
    | butterfly => exact Or.inr rfl
  have hn := copyGeometry_needs (lib := lib) (sch := sch.toScheme) hv hl'
    (fun hb => hi (by cases sch <;> first | rfl | cases hb))
  obtain ⟨l, h1, h2, h2', h3⟩ := hcrit _ c.sel hn.valid (by rw [copyGeometry_tris lib hv]; exact hT)
  unfold condGenerate
  simp only [h1]
  refine condLoop_diverges (fun c cur => sch.toScheme.Needs cur ∧ cur.tris ≠ [] ∧ ∃ l : List Edge, c.sel = l.map some ∧
    (∀ e ∈ l, cur.IsEdge e) ∧ DistinctEdges l ∧ l ≠ []) ?_
    ?_ n ⟨hn, by rw [copyGeometry_tris lib hv]; exact hT, l, rfl, h2, h2', h3⟩
  · rintro c cur ⟨-, -, l, h, -, -, hne⟩
    rw [h]; simpa using hne
  rintro c cur ⟨k1, k2, l, k3, k4, k5, k6⟩
  obtain ⟨m, f', h4, -, h5, h6⟩ := condEdgeUpd_ok cosn hl k1 k6 k4 k5 c.inner
  have hmT : m.tris ≠ [] := by
    rw [h6]
    obtain ⟨t, ht⟩ := List.exists_mem_of_ne_nil _ k2
    obtain ⟨d, hd, -⟩ := children_has_corner (cur.listPoint (l.map some)) t (v := t.1) (by simp [Tri.verts])
    exact List.ne_nil_of_mem (List.mem_flatMap.2 ⟨t, ht, hd⟩)
  obtain ⟨l', h7, h8, h9, h10⟩ := hcrit m c.sel h5.valid hmT
  exact ⟨m, f', _, by rw [k3]; exact h4, h7, h5, hmT, l', rfl, h8, h9, h10⟩

example (n : Nat) : condGenerate someLib (condEdgeUpd .butterfly someLib cos0) (some (lengthCompute taxi (-1))) n
    ⟨Filt.new, []⟩ tetraMesh = none :=
  C34_negative_length_refuted cos0 (fun _ => someLib_lawful) tetraMesh_ok.1 (fun h => by cases h)
    (by decide) (fun _ _ => lt_of_lt_of_le (by norm_num) (add_nonneg (abs_nonneg _) (abs_nonneg _))) _ n

end diverge
end Verif
