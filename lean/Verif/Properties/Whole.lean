import Verif.Proofs.Whole
import Verif.Properties.Order
import Verif.Properties.History
/-
C54: selecting all cells is selecting none.  C55: selecting cells is listing their edges.
-/
namespace Verif
set_option linter.unusedSectionVars false

section any
variable {K P D : Type} [Field K] [Zero P] [Add P] [SMul K P] {lib : QELib} {cosn : Nat → K} {inp : Mesh P D}

/-- C54. A run with all cells selected, in their order, makes the same mesh as a uniform run: the same points, cells, data,
edges and rings.  (Loop: objects whose last run was not selective, see `C54_loop_refuted`.) -/
theorem C54_select_all_partial {sch : Scheme} (lib : QELib) (cosn : Nat → K) (hn : sch.Needs inp)
    (hmax : sch = .sqrt3 → inp.points.length + inp.tris.length ≤ idMax) {f g : Filt}
    (hl : sch = .loop → f.uniform = true ∧ g.uniform = true) :
    ∃ out f' g', cellUpdate sch lib cosn (f.setCells (inp.cells.map Prod.fst)) inp = (.ok out, f') ∧
      cellUpdate sch lib cosn (g.setCells []) inp = (.ok out, g') ∧ g'.cells = [] ∧ f'.cells = out.cells.map Prod.fst := by
  obtain ⟨out, f₁, f₂, h1, h2, h3, h4⟩ := whole_run (lib := lib) (cosn := cosn) hn hmax hl
  exact ⟨out, f₁, f₂, h1, h2, h3, h4⟩

/-- C54 for the iterative filter, any number of levels, all schemes. -/
theorem C54_select_all_iterative {sch : Scheme} (lib : QELib) (cosn : Nat → K)
    (hlaw : sch = .loop ∨ sch = .butterfly → lib.Lawful) (hn : sch.Needs inp) (f : Iter)
    (hid : sch.IdsLeft (max 1 f.levels) inp []) :
    ∃ out, (iterUpdate sch lib cosn (f.setCells (inp.cells.map Prod.fst)) inp).1 = .ok out ∧
      (iterUpdate sch lib cosn (f.setCells []) inp).1 = .ok out := by
  have key : ∀ (L : Nat) (m : Mesh P D), sch.Needs m → sch.IdsLeft L m [] →
      ∃ out s, manyLevels sch lib cosn L (m, m.cells.map Prod.fst) = .ok (out, s) ∧
        manyLevels sch lib cosn L (m, []) = .ok (out, []) := by
    intro L
    induction L with
    | zero => exact fun m _ _ => ⟨m, _, rfl, rfl⟩
    | succ L ih =>
      intro m hm hid
      obtain ⟨m1, f₁, f₂, h1, h2, h3, h4⟩ := whole_run (lib := lib) (cosn := cosn) (f := Filt.new) (g := Filt.new) hm
        (fun hs => by have := IdsLeft.now hid hs; simpa [Mesh.selected] using this) (fun _ => ⟨rfl, rfl⟩)
      obtain ⟨m1', s1, g1, hn1, -, hid1, hu1, -⟩ := oneLevel_ok cosn hlaw hm (sel := []) (fun k hk => by cases hk) hid
      have g2 : oneLevel sch lib cosn (m, []) = .ok (m1, []) := by
        unfold oneLevel; simp only [h2, h3]
      rw [g2] at g1
      cases g1
      obtain ⟨out, s, k1, k2⟩ := ih m1 hn1 hid1
      refine ⟨out, s, ?_, ?_⟩
      · unfold manyLevels
        have g3 : oneLevel sch lib cosn (m, m.cells.map Prod.fst) = .ok (m1, m1.cells.map Prod.fst) := by
          unfold oneLevel; simp only [h1, h4]
        rw [g3]
        exact k1
      · unfold manyLevels
        rw [g2]
        exact k2
  obtain ⟨out, s, h1, h2⟩ := key _ inp hn hid
  refine ⟨out, ?_, ?_⟩
  · rw [iterUpdate_eq, ← levelsOf_eq]
    show (manyLevels sch lib cosn (max 1 f.levels) (inp, inp.cells.map Prod.fst)).map Prod.fst = _
    rw [h1]
    rfl
  · rw [iterUpdate_eq, ← levelsOf_eq]
    show (manyLevels sch lib cosn (max 1 f.levels) (inp, [])).map Prod.fst = _
    rw [h2]
    rfl

example (sch : Scheme) : ∃ out f' g', cellUpdate sch someLib cos0 (Filt.new.setCells [0, 1, 2, 3]) patchMesh = (.ok out, f') ∧
    cellUpdate sch someLib cos0 (Filt.new.setCells []) patchMesh = (.ok out, g') ∧ g'.cells = [] ∧
    f'.cells = out.cells.map Prod.fst :=
  C54_select_all_partial someLib cos0 (patchMesh_needs sch) (fun _ => by rw [patchMesh_ok.2.2.2]; decide) fun _ => ⟨rfl, rfl⟩

example : ∃ out, (iterUpdate .sqrt3 someLib cos0 ⟨[0, 1, 2, 3], 5, []⟩ tetraMesh).1 = .ok out ∧
    (iterUpdate .sqrt3 someLib cos0 ⟨[], 5, []⟩ tetraMesh).1 = .ok out :=
  C54_select_all_iterative someLib cos0 (fun h => by rcases h with h | h <;> cases h) (tetraMesh_needs _) ⟨[], 5, []⟩ fun _ => by decide

/-- C55, lists in the order in which the cell filter meets the edges: the Linear and Butterfly edge filters with the edges
of the cells that the cell filter is given make the same mesh. -/
theorem C55_cells_as_edges_exact {sch : EdgeScheme} (hs : sch ≠ .loop) (lib : QELib) (cosn : Nat → K)
    (hn : sch.toScheme.Needs inp) {f g : Filt} (hsel : inp.SelOK f.cells) (hes : inp.EdgeSelOK g.edgeSel)
    (he : inp.selectedEdges g.edgeSel = edgeList (inp.selected f.cells)) :
    ∃ out f' g', cellUpdate sch.toScheme lib cosn f inp = (.ok out, f') ∧ edgeUpdate sch lib cosn g inp = (.ok out, g') := by
  obtain ⟨out, f', h1, R1⟩ := cellUpdate_ok (sch := sch.toScheme) (by cases sch <;> decide) lib cosn hn hsel
  obtain ⟨out', g', h2, R2⟩ := edgeUpdate_ok lib cosn hn hes
  rw [lastLabel_eq (by rw [he]; exact pairwise_edgeList _), he] at R2
  have hb : schemeBase sch.toScheme cosn inp f = inp.coord := by
    funext v
    cases sch with
    | loop => exact absurd rfl hs
    | _ => rfl
  rw [hb] at R1
  have := R1.out_eq R2
  subst this
  exact ⟨out, f', g', h1, h2⟩

/-- the edges of the cells 1 and 3 of `patchMesh` -/
def patchList : List (Option Edge) := [some (1, 0), some (0, 3), some (3, 1), some (0, 2), some (2, 5), some (5, 0)]

theorem patchList_ok : patchMesh.EdgeSelOK patchList := by
  intro e he
  simp only [patchList, List.mem_cons, Option.some.injEq, List.not_mem_nil, or_false] at he
  rcases he with rfl | rfl | rfl | rfl | rfl | rfl <;> (unfold Mesh.IsEdge; decide)

/-- the same edges in another order and direction -/
def patchListR : List (Option Edge) := [some (5, 2), some (1, 0), some (0, 5), some (3, 1), some (2, 0), some (3, 0)]

theorem patchListR_ok : patchMesh.EdgeSelOK patchListR := by
  intro e he
  simp only [patchListR, List.mem_cons, Option.some.injEq, List.not_mem_nil, or_false] at he
  rcases he with rfl | rfl | rfl | rfl | rfl | rfl <;> (unfold Mesh.IsEdge; decide)

theorem patchListR_same (e : Edge) : (e ∈ patchMesh.selectedEdges patchListR ∨ e.sym ∈ patchMesh.selectedEdges patchListR) ↔
    (e ∈ dartsOf (patchMesh.selected [1, 3]) ∨ e.sym ∈ dartsOf (patchMesh.selected [1, 3])) := by
  have h : ((patchMesh.selectedEdges patchListR).map Edge.canon).Perm ((edgeList (patchMesh.selected [1, 3])).map Edge.canon) := by
    decide
  rw [← mem_edgeList, ← mem_canon, ← mem_canon]
  exact h.mem_iff

example : ∃ out f' g', cellUpdate .butterfly someLib cos0 (usedFilt [1, 3]) patchMesh = (.ok out, f') ∧
    edgeUpdate .butterfly someLib cos0 (Filt.new.setEdges patchList) patchMesh = (.ok out, g') :=
  C55_cells_as_edges_exact (sch := .butterfly) (by decide) someLib cos0 (patchMesh_needs _) patchMesh_sel patchList_ok (by decide)

end any

section vector
variable {K P D : Type} [Field K] [AddCommGroup P] [Module K P] {lib : QELib} {cosn : Nat → K} {inp : Mesh P D}

/-- C54, cells listed in any order and any number of times. -/
theorem C54_select_all_any_order {sch : Scheme} (hs : sch = .linear ∨ sch = .loop ∨ sch = .butterfly ∧ inp.Closed)
    (hn : sch.Needs inp) {f f₁ f₂ : Filt} (hl : sch = .loop → f.uniform = true) {l : List CId}
    (hall : ∀ k, k ∈ l ↔ k ∈ inp.cells.map Prod.fst) {out₁ out₂ : Mesh P D}
    (h₁ : cellUpdate sch lib cosn (f.setCells l) inp = (.ok out₁, f₁))
    (h₂ : cellUpdate sch lib cosn (f.setCells []) inp = (.ok out₂, f₂)) :
    out₁.coordTris = out₂.coordTris ∧ out₁.points.length = out₂.points.length ∧
      ∀ v, v < inp.points.length → out₁.pos v = out₂.pos v := by
  have hs3 : sch ≠ .sqrt3 := by rcases hs with rfl | rfl | ⟨rfl, _⟩ <;> decide
  obtain ⟨out, g₁, g₂, k1, k2, -, -⟩ := whole_run (lib := lib) (cosn := cosn) (f := f) (g := f) hn (fun hc => absurd hc hs3)
    fun h => ⟨hl h, hl h⟩
  rw [h₂] at k2
  cases k2
  exact C27_selection_order hs hn (fun k hk => (hall k).1 hk) hall h₁ k1

example (out₁ out₂ : Mesh Q3 Nat) (f₁ f₂ : Filt)
    (h₁ : cellUpdate .linear someLib cos0 ((usedFilt []).setCells [2, 0, 3, 1, 0]) patchMesh = (.ok out₁, f₁))
    (h₂ : cellUpdate .linear someLib cos0 ((usedFilt []).setCells []) patchMesh = (.ok out₂, f₂)) :
    out₁.coordTris = out₂.coordTris := by
  refine (C54_select_all_any_order (.inl rfl) (patchMesh_needs _) (fun h => nomatch h) (fun k => ?_) h₁ h₂).1
  have : patchMesh.cells.map Prod.fst = [0, 1, 2, 3] := by decide
  rw [this]
  simp only [List.mem_cons, List.not_mem_nil, or_false]
  constructor
  · rintro (h | h | h | h | h) <;> simp [h]
  · rintro (h | h | h | h) <;> simp [h]

/-- C55. The Linear edge filter (and the Butterfly edge filter, on closed meshes), given the edges of some cells in any
order and direction, makes the same triangles at the same places, with the same cell data, as the cell filter given these
cells. -/
theorem C55_cells_as_edges {sch : EdgeScheme} (hs : sch = .linear ∨ sch = .butterfly ∧ inp.Closed)
    (hn : sch.toScheme.Needs inp) {f f' g g' : Filt} (hsel : inp.SelOK f.cells) (hes : inp.EdgeSelOK g.edgeSel)
    (hsame : ∀ e, (e ∈ inp.selectedEdges g.edgeSel ∨ e.sym ∈ inp.selectedEdges g.edgeSel) ↔
      (e ∈ dartsOf (inp.selected f.cells) ∨ e.sym ∈ dartsOf (inp.selected f.cells))) {out₁ out₂ : Mesh P D}
    (h₁ : cellUpdate sch.toScheme lib cosn f inp = (.ok out₁, f')) (h₂ : edgeUpdate sch lib cosn g inp = (.ok out₂, g')) :
    out₁.coordTris = out₂.coordTris ∧ (∀ v, v < inp.points.length → out₁.pos v = out₂.pos v) ∧
      (∀ k, out₁.dataAt k = out₂.dataAt k) ∧
      (DistinctEdges (inp.selectedEdges g.edgeSel) → out₁.points.length = out₂.points.length) := by
  have hv := hn.valid
  have hs3 : sch.toScheme ≠ .sqrt3 := by cases sch <;> decide
  have hsym := fun e he => schemePoint_sym (K := K) hn (by
    intro hb; rcases hs with h | ⟨_, h⟩
    · rw [h] at hb; cases hb
    · exact h) (e := e) he
  have R₁ := (cellUpdate_result hs3 hn hsel h₁).1
  have R₂ := edgeUpdate_result hn hes h₂
  have hbase : ∀ v, v < inp.points.length → out₁.pos v = out₂.pos v := fun v hlt => by
    rw [cellUpdate_base hs3 hn hsel h₁ hlt]
    refine Eq.trans ?_ (pos_base R₂.points hlt).symm
    rcases hs with rfl | ⟨rfl, _⟩ <;> rfl
  have hsome : ∀ e, (inp.edgePoint f.cells e).isSome = (inp.listPoint g.edgeSel e).isSome := fun e => by
    rw [Bool.eq_iff_iff, edgePoint_isSome]
    unfold Mesh.listPoint
    rw [lastLabel_isSome]
    exact (hsame e).symm
  refine ⟨?_, hbase, fun k => ?_, fun hd => ?_⟩
  · refine coordTris_children (ρ := id) R₁.tris (by rw [rename_id]; exact R₂.tris)
      (fun t ht v hvv => hbase v (hv.verts_lt ht hvv)) fun e he => ?_
    have e1 := cellUpdate_edgeMap hs3 hn hsym hsel h₁ e
    have e2 := edgeUpdate_edgeMap hn hsym hes h₂ e
    refine e1.trans (Eq.trans ?_ e2.symm)
    exact if_congr (Bool.eq_iff_iff.1 (hsome e)) rfl rfl
  · rw [R₁.data, R₂.data]
    have : (childItems (inp.edgePoint f.cells) f.cells.isEmpty inp.cells).map Prod.fst =
        (childItems (inp.listPoint g.edgeSel) g.edgeSel.isEmpty inp.cells).map Prod.fst := by
      unfold childItems
      rw [List.map_flatMap, List.map_flatMap]
      congr 1
      funext c
      rcases Cell.tri? c.2 with _ | t
      · rfl
      · simp only [childItemsOf, List.map_map]
        show (t.children _).map (fun _ => c.1) = (t.children _).map (fun _ => c.1)
        rw [List.map_const', List.map_const', children_length, children_length]
        congr 3
        exact List.filter_congr fun e _ => hsome e
    have e1 : ∀ L : List Item, (L[k]?.bind fun x => inp.dataAt x.1) = (L.map Prod.fst)[k]?.bind inp.dataAt := fun L => by
      rw [List.getElem?_map]; cases L[k]? <;> rfl
    rw [e1, e1, this]
  · rw [R₁.points, R₂.points, AMap.length_dense, AMap.length_dense]
    simp only [List.length_append, List.length_map]
    congr 1
    exact distinct_length_eq (pairwise_edgeList _) hd fun e => (mem_edgeList _ e).trans (hsame e).symm

example (out₁ out₂ : Mesh Q3 Nat) (f' g' : Filt)
    (h₁ : cellUpdate .linear someLib cos0 (usedFilt [1, 3]) patchMesh = (.ok out₁, f'))
    (h₂ : edgeUpdate .linear someLib cos0 (Filt.new.setEdges patchListR) patchMesh = (.ok out₂, g')) :
    out₁.coordTris = out₂.coordTris ∧ out₁.points.length = out₂.points.length := by
  obtain ⟨a, -, -, b⟩ := C55_cells_as_edges (sch := .linear) (.inl rfl) (patchMesh_needs _) patchMesh_sel patchListR_ok
    patchListR_same h₁ h₂
  exact ⟨a, b (by unfold DistinctEdges; decide)⟩

end vector

section real

/-- C54 fails for a Loop object whose last run was selective: with all cells selected it smooths the corner, with none
selected it does not. -/
theorem C54_loop_refuted (lib : QELib) : ∃ (hist : List (CellCall ℝ Nat)) (inp : Mesh ℝ Nat) (m₁ m₂ : Mesh ℝ Nat),
    Scheme.loop.Needs inp ∧
    (cellUpdate .loop lib realCos ((afterCalls .loop lib realCos hist).setCells (inp.cells.map Prod.fst)) inp).1 = .ok m₁ ∧
    (cellUpdate .loop lib realCos ((afterCalls .loop lib realCos hist).setCells []) inp).1 = .ok m₂ ∧
    m₁.pos 3 = some (19 / 2) ∧ m₂.pos 3 = some 12 := by
  obtain ⟨m₀, f₀, e₀, -⟩ := cellUpdate_ok (sch := .loop) (by decide) lib realCos (f := Filt.new) (patchR_needs _)
    (selOK_nil _)
  have hflag := C25_loop_flag (lib := lib) (cosn := realCos) (f := Filt.new.setCells [0]) (patchR_needs _)
    (by unfold Mesh.SelOK; decide)
  have ha : afterCalls .loop lib realCos [.set [0], .run patchR] =
      (cellUpdate .loop lib realCos (Filt.new.setCells [0]) patchR).2 := by
    simp only [afterCalls, List.foldl_cons, List.foldl_nil]
  have hu : (afterCalls .loop lib realCos [.set [0], .run patchR]).uniform = false := by rw [ha]; exact hflag
  have hall : patchR.cells.map Prod.fst = [0, 1, 2, 3] := by decide
  refine ⟨[.set [0], .run patchR], patchR, ?_⟩
  generalize afterCalls .loop lib realCos [.set [0], .run patchR] = g at hu
  have hsel : patchR.SelOK (g.setCells (patchR.cells.map Prod.fst)).cells := fun _ hk => hk
  obtain ⟨m₁, f₁, e₁, -⟩ := cellUpdate_ok (sch := .loop) (by decide) lib realCos (patchR_needs _) hsel
  obtain ⟨m₂, f₂, e₂, -⟩ := cellUpdate_ok (sch := .loop) (by decide) lib realCos (f := g.setCells []) (patchR_needs _)
    (selOK_nil _)
  refine ⟨m₁, m₂, patchR_needs _, congrArg Prod.fst e₁, congrArg Prod.fst e₂, ?_, ?_⟩
  · have h0 := C09_loop_boundary_point (v := 3) (p := 12) (a := 0) (b := 1) (pa := 0) (pb := 4) (patchR_needs _) e₀ rfl
      (by decide) (fun _ => patchR_point3) rfl rfl
    rw [cellUpdate_base (by decide) (patchR_needs _) (selOK_nil _) e₀ (v := 3) (by decide)] at h0
    rw [cellUpdate_base (by decide) (patchR_needs _) hsel e₁ (v := 3) (by decide)]
    refine Eq.trans ?_ (h0.trans (congrArg some ?_))
    · simp only [schemeBase, loopBase, Filt.setCells, hall, hu]
      rfl
    · simp only [smul_eq_mul]
      norm_num
  · rw [cellUpdate_base (by decide) (patchR_needs _) (selOK_nil _) e₂ (v := 3) (by decide)]
    simp only [schemeBase, loopBase, Filt.setCells, hu]
    rfl

end real
end Verif
