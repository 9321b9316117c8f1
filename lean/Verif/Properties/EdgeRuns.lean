import Verif.Proofs.EdgeAlike
import Verif.Proofs.Failures
import Verif.Spec.History
import Verif.Properties.Edge
import Verif.Properties.Hull
/-
C43: null entries and empty meshes.  C44: what earlier runs of an edge filter leave behind.  C19, C20 for the edge filters.
-/
namespace Verif
set_option linter.unusedSectionVars false
variable {K P P' D : Type} [Field K] [Zero P] [Add P] [SMul K P] [Zero P'] [Add P'] [SMul K P']

/-- C43, null edges: two non-empty lists that name the same edges in the same order, with any null entries in between, give
the same outcome of each edge filter, on any mesh and whatever else the two objects hold. -/
theorem C43_null_edges (sch : EdgeScheme) (lib : QELib) (cosn : Nat → K) (inp : Mesh P D) (f g : Filt)
    (hf : f.edgeSel ≠ []) (hg : g.edgeSel ≠ []) (h : f.edgeSel.filterMap id = g.edgeSel.filterMap id) :
    (edgeUpdate sch lib cosn f inp).1 = (edgeUpdate sch lib cosn g inp).1 :=
  edgeUpdate_same sch lib cosn inp ⟨h, by
    rw [Bool.eq_iff_iff, List.isEmpty_iff, List.isEmpty_iff]
    exact ⟨fun h => absurd h hf, fun h => absurd h hg⟩⟩

example : (edgeUpdate .butterfly someLib cos0 (Filt.new.setEdges [none, some (1, 0), none, some (4, 2)]) patchMesh).1 =
    (edgeUpdate .butterfly someLib cos0 (Filt.new.setEdges [some (1, 0), some (4, 2), none]) patchMesh).1 :=
  C43_null_edges _ _ _ _ _ _ (by simp [Filt.setEdges]) (by simp [Filt.setEdges]) rfl

/-- C43, a list of null entries only: no edge is split, and the mesh comes out as it is (it is not taken for an empty list,
which stands for all edges). -/
theorem C43_only_null_edges {sch : EdgeScheme} (lib : QELib) (cosn : Nat → K) {f : Filt} {inp : Mesh P D}
    (hn : sch.toScheme.Needs inp) (hne : f.edgeSel ≠ []) (hnull : ∀ x ∈ f.edgeSel, x = none) :
    ∃ out f', edgeUpdate sch lib cosn f inp = (.ok out, f') ∧ out.points = inp.points ∧ out.tris = inp.tris ∧
      out.Valid := by
  have hsel : inp.EdgeSelOK f.edgeSel := fun e he => by cases hnull _ he
  obtain ⟨out, f', h, R⟩ := edgeUpdate_ok lib cosn hn hsel
  have hs : inp.selectedEdges f.edgeSel = [] := by
    unfold Mesh.selectedEdges
    rw [if_neg (by simpa using hne), List.filterMap_eq_nil_iff]
    exact fun x hx => hnull x hx
  refine ⟨out, f', h, ?_, ?_, R.valid hn.valid⟩
  · rw [R.points, hs, List.map_nil, List.append_nil]
    have hd := AMap.eq_dense _ hn.valid.points_dense
    conv_rhs => rw [hd]
    congr 1
    apply List.ext_getElem?
    intro i
    by_cases hi : i < inp.points.length
    · have h1 := hn.valid.pos_eq hi
      unfold Mesh.pos at h1
      rw [hd, AMap.find?_dense] at h1
      rw [h1]
      simp [hi]
    · rw [List.getElem?_eq_none (by simpa using hi), List.getElem?_eq_none (by simpa using hi)]
  · rw [R.tris, hs]
    have : ∀ l : List Tri, l.flatMap (Tri.children (lastLabel inp.points.length [])) = l := by
      intro l
      induction l with
      | nil => rfl
      | cons t l ih =>
        rw [List.flatMap_cons, ih]
        rfl
    exact this _

example : ∃ out f', edgeUpdate .loop someLib cos0 (Filt.new.setEdges [none, none]) patchMesh = (.ok out, f') ∧
    out.points = patchMesh.points ∧ out.tris = patchMesh.tris ∧ out.Valid :=
  C43_only_null_edges _ _ (patchMesh_needs _) (by simp [Filt.setEdges]) (by simp [Filt.setEdges])

theorem copy_empty {inp : Mesh P D} (hp : inp.points.map Prod.fst = List.range inp.points.length) (f : Filt) :
    copyPoints inp ⟨f, Mesh.empty⟩ = (.ok (), ⟨f, { (Mesh.empty : Mesh P D) with points := inp.points }⟩) := by
  unfold copyPoints modifyOut
  simp only
  congr 3
  have hd := AMap.eq_dense _ hp
  have e : (Mesh.empty : Mesh P D).points = [] := rfl
  rw [e, AMap.reserve_nil]
  generalize inp.points.length = n at *
  rw [hd] at hp ⊢
  have hl : (inp.points.map Prod.snd).length = n := by
    have := congrArg List.length hp
    simpa [AMap.length_dense] using this
  exact AMap.foldl_set_dense _ _ (by simp [hl])

/-- C43, empty meshes, the part that holds (missing: Loop, see `C43_empty_mesh_loop_refuted`): without cells and without a list of cells, the Linear, ModifiedButterfly and SquareThree cell filters
(and the edge filters of Linear and ModifiedButterfly when there are no edges either) output the points and nothing else. -/
theorem C43_empty_mesh_partial (lib : QELib) (cosn : Nat → K) {f : Filt} {inp : Mesh P D}
    (hp : inp.points.map Prod.fst = List.range inp.points.length) (hc : inp.cells = []) :
    (∀ sch : Scheme, sch ≠ .loop → f.cells = [] → ∃ out, (cellUpdate sch lib cosn f inp).1 = .ok out ∧
      out.points = inp.points ∧ out.cells = [] ∧ out.edges = [] ∧ out.cellData = none) ∧
    (∀ sch : EdgeScheme, sch ≠ .loop → f.edgeSel = [] → inp.hasEdgeCells = true → inp.edges = [] →
      ∃ out, (edgeUpdate sch lib cosn f inp).1 = .ok out ∧
      out.points = inp.points ∧ out.cells = [] ∧ out.edges = [] ∧ out.cellData = none) := by
  have h1 : ∀ (addNew : Option Cell → M P D Unit), f.cells = [] → ∃ g, generateOutputPoints (copyPoints inp) addNew inp ⟨f, Mesh.empty⟩ =
      (.ok (), ⟨g, { (Mesh.empty : Mesh P D) with points := inp.points }⟩) := by
    intro addNew hf
    refine ⟨{ f with epi := fun _ => none, uniform := f.cells.isEmpty }, ?_⟩
    unfold generateOutputPoints
    rw [Prog.bind_ok (copy_empty hp f)]
    show (if f.cells.isEmpty = true then _ else _) = _
    rw [if_pos (by rw [hf]; rfl), hc]
    rfl
  have h2 : ∀ (addNew : Edge → M P D Unit), f.edgeSel = [] → inp.hasEdgeCells = true → inp.edges = [] →
      ∃ g, edgeOutputPoints (copyPoints inp) addNew inp ⟨f, Mesh.empty⟩ =
      (.ok (), ⟨g, { (Mesh.empty : Mesh P D) with points := inp.points }⟩) := by
    intro addNew hf he hl
    refine ⟨{ f with epi := fun _ => none, uniform := f.edgeSel.isEmpty }, ?_⟩
    unfold edgeOutputPoints
    rw [Prog.bind_ok (copy_empty hp f)]
    show (if f.edgeSel.isEmpty = true then _ else _) = _
    rw [if_pos (by rw [hf]; rfl), if_pos he, hl]
    rfl
  have h3 : ∀ (pts cls : M P D Unit) (g : Filt), pts ⟨f, Mesh.empty⟩ =
      (.ok (), ⟨g, { (Mesh.empty : Mesh P D) with points := inp.points }⟩) →
      (∀ s, cls s = (.ok (), ⟨{ s.filt with cells := [] }, s.out⟩)) →
      ∃ out, (runFilter lib (generateData pts cls) f).1 = .ok out ∧
      out.points = inp.points ∧ out.cells = [] ∧ out.edges = [] ∧ out.cellData = none := by
    intro pts cls g hg hcl
    unfold runFilter generateData
    rw [Prog.bind_ok hg, hcl]
    exact ⟨_, rfl, rfl, rfl, rfl, rfl⟩
  have h4 : ∀ s : St P D, generateOutputCells inp s = (.ok (), ⟨{ s.filt with cells := [] }, s.out⟩) := by
    intro s
    unfold generateOutputCells
    rw [hc]
    rfl
  have h5 : ∀ s : St P D, sq3OutputCells inp s = (.ok (), ⟨{ s.filt with cells := [] }, s.out⟩) := by
    intro s
    unfold sq3OutputCells
    rw [hc]
    rfl
  constructor
  · intro sch hs hf
    unfold cellUpdate cellGenerate
    cases sch with
    | loop => exact absurd rfl hs
    | linear => obtain ⟨g, hg⟩ := h1 (linearAddNew K inp) hf; exact h3 _ _ g hg h4
    | butterfly => obtain ⟨g, hg⟩ := h1 (butterflyAddNew K inp) hf; exact h3 _ _ g hg h4
    | sqrt3 => obtain ⟨g, hg⟩ := h1 (sq3AddNew K inp) hf; exact h3 _ _ g hg h5
  · intro sch hs hf he hl
    unfold edgeUpdate edgeGenerate
    cases sch with
    | loop => exact absurd rfl hs
    | linear => obtain ⟨g, hg⟩ := h2 (addNewEdgePoint (linearPoint K inp)) hf he hl; exact h3 _ _ g hg h4
    | butterfly => obtain ⟨g, hg⟩ := h2 (addNewEdgePoint (butterflyPoint K inp)) hf he hl; exact h3 _ _ g hg h4

/-- two points and nothing else -/
def twoPoints : Mesh Q3 Nat := mk [(1, 2, 3), (4, 5, 6)] [] none

example : ∃ out, (cellUpdate .sqrt3 someLib cos0 (usedFilt []) twoPoints).1 = .ok out ∧
    out.points = twoPoints.points ∧ out.cells = [] ∧ out.edges = [] ∧ out.cellData = none :=
  (C43_empty_mesh_partial someLib cos0 rfl rfl).1 _ (by decide) rfl

/-- C43 is false for Loop: on a mesh without cells that has points, a new Loop cell filter and the Loop edge filter use the
edge of a point that has none (undefined behaviour). -/
theorem C43_empty_mesh_loop_refuted (lib : QELib) (cosn : Nat → K) {f : Filt} {inp : Mesh P D} (hp : inp.points ≠ [])
    (hr : ∀ v, inp.ring.pointEdge v = none) :
    (f.uniform = true → (cellUpdate .loop lib cosn f inp).1 = .error (.ub .nullDeref)) ∧
    (edgeUpdate .loop lib cosn f inp).1 = .error (.ub .nullDeref) := by
  have hw : ∀ (val : PId → P → Except Fail P) (s : St P D), (∀ v p, val v p = .error (.ub .nullDeref)) →
      writePoints val inp.points s = (.error (.ub .nullDeref), s) := by
    intro val s hval
    obtain ⟨kp, l, hl⟩ := List.exists_cons_of_ne_nil hp
    rw [hl]
    unfold writePoints Prog.forEach Prog.bind Prog.lift
    rw [hval]
  have hrun : ∀ (pts cls : M P D Unit) (s : St P D), pts ⟨f, Mesh.empty⟩ = (.error (.ub .nullDeref), s) →
      (runFilter lib (generateData pts cls) f).1 = .error (.ub .nullDeref) := by
    intro pts cls s hs
    unfold runFilter generateData Prog.bind
    rw [hs]
  constructor
  · intro hu
    unfold cellUpdate cellGenerate
    refine hrun _ _ ⟨f, { (Mesh.empty : Mesh P D) with points := AMap.reserve [] inp.points.length 0 }⟩ ?_
    unfold generateOutputPoints
    have : loopCopy cosn inp ⟨f, Mesh.empty⟩ = (.error (.ub .nullDeref),
        ⟨f, { (Mesh.empty : Mesh P D) with points := AMap.reserve [] inp.points.length 0 }⟩) := by
      rw [loopCopy_eq]
      simp only [hu, if_true]
      refine hw _ _ fun v p => ?_
      unfold smoothingPoint
      rw [hr]
    unfold Prog.bind
    rw [this]
  · unfold edgeUpdate edgeGenerate
    refine hrun _ _ ⟨f, { (Mesh.empty : Mesh P D) with points := AMap.reserve [] inp.points.length 0 }⟩ ?_
    unfold edgeOutputPoints
    have : loopEdgeCopy cosn inp ⟨f, Mesh.empty⟩ = (.error (.ub .nullDeref),
        ⟨f, { (Mesh.empty : Mesh P D) with points := AMap.reserve [] inp.points.length 0 }⟩) := by
      unfold loopEdgeCopy
      change writePoints (loopEdgeValue cosn inp f.edgeSel) _ _ = _
      refine hw _ _ fun v p => ?_
      unfold loopEdgeValue
      rw [hr]
    unfold Prog.bind
    rw [this]

example : (cellUpdate .loop someLib cos0 Filt.new twoPoints).1 = .error (.ub .nullDeref) :=
  (C43_empty_mesh_loop_refuted someLib cos0 (by simp [twoPoints, mk, meshOf]) (fun v => by rfl)).1 rfl

/-- C44. Take any two histories of calls on two edge filter objects (with any meshes, runs that failed included) after which
they hold the same list of edges; the next run on any mesh has the same outcome, and the list is kept. -/
theorem C44_edge_history_irrelevant (sch : EdgeScheme) (lib : QELib) (cosn : Nat → K) (h₁ h₂ : List (EdgeCall P D))
    (hsel : (afterEdgeCalls sch lib cosn h₂).edgeSel = (afterEdgeCalls sch lib cosn h₁).edgeSel) (inp : Mesh P D) :
    (edgeUpdate sch lib cosn (afterEdgeCalls sch lib cosn h₂) inp).1 =
      (edgeUpdate sch lib cosn (afterEdgeCalls sch lib cosn h₁) inp).1 := by
  refine edgeUpdate_same sch lib cosn inp ?_
  rw [hsel]
  exact SameEdges.rfl

/-- in particular `SetCellsToBeSubdivided(l)` on an edge filter object with any history is as good as on a new one -/
theorem C44_set_edges (sch : EdgeScheme) (lib : QELib) (cosn : Nat → K) (h : List (EdgeCall P D)) (l : List (Option Edge))
    (inp : Mesh P D) :
    (edgeUpdate sch lib cosn ((afterEdgeCalls sch lib cosn h).setEdges l) inp).1 =
      (edgeUpdate sch lib cosn (Filt.new.setEdges l) inp).1 :=
  edgeUpdate_same sch lib cosn inp SameEdges.rfl

example : (edgeUpdate .loop someLib cos0 ((afterEdgeCalls .loop someLib cos0
      [.set [some (7, 8)], .run tetraMesh, .add none, .run patchMesh, .run tetraMesh]).setEdges [some (0, 1)]) patchMesh).1 =
    (edgeUpdate .loop someLib cos0 (Filt.new.setEdges [some (0, 1)]) patchMesh).1 :=
  C44_set_edges _ _ _ _ _ _

section affine
variable {K P P' D : Type} [Field K] [AddCommGroup P] [Module K P] [AddCommGroup P'] [Module K P']
variable [CharZero K]

/-- C19 for the three edge filters: the run on the moved mesh is the moved run, for any list of edges of the mesh.  (Loop
needs no extra hypothesis here, since the edge filter moves no original point.) -/
theorem C19_affine_edge {sch : EdgeScheme} (lib : QELib) (cosn : Nat → K) {f : Filt} {inp : Mesh P D}
    (hn : sch.toScheme.Needs inp) (hsel : inp.EdgeSelOK f.edgeSel) (φ : P →ᵃ[K] P') :
    (edgeUpdate sch lib cosn f (inp.mapPoints φ)).1 = (edgeUpdate sch lib cosn f inp).1.map (Mesh.mapPoints φ) := by
  have hv := hn.valid
  have hv' : (inp.mapPoints φ).Valid := hv.mapPoints
  have key : (List.range (inp.mapPoints φ).points.length).map (inp.mapPoints φ).coord =
      ((List.range inp.points.length).map inp.coord).map φ := by
    rw [mapPoints_length, List.map_map]
    exact List.map_congr_left fun v hvv => hv.coord_map (List.mem_range.1 hvv)
  have hcopy : ∀ {copy : M P D Unit} {copy' : M P' D Unit},
      copy ⟨f, Mesh.empty⟩ = (.ok (), ⟨f, { (Mesh.empty : Mesh P D) with
        points := AMap.dense ((List.range inp.points.length).map inp.coord) }⟩) →
      copy' ⟨f, Mesh.empty⟩ = (.ok (), ⟨f, { (Mesh.empty : Mesh P' D) with
        points := AMap.dense ((List.range (inp.mapPoints φ).points.length).map (inp.mapPoints φ).coord) }⟩) →
      ResRel Eq (copy ⟨f, Mesh.empty⟩).1 (copy' ⟨f, Mesh.empty⟩).1 ∧
      (copy' ⟨f, Mesh.empty⟩).2.out = (copy ⟨f, Mesh.empty⟩).2.out.mapPoints φ ∧
      SameEdges (copy ⟨f, Mesh.empty⟩).2.filt.edgeSel (copy' ⟨f, Mesh.empty⟩).2.filt.edgeSel ∧
      (copy ⟨f, Mesh.empty⟩).2.filt.edgeSel = f.edgeSel := by
    intro copy copy' h1 h2
    rw [h1, h2]
    refine ⟨rfl, ?_, SameEdges.rfl, rfl⟩
    simp only
    rw [key, ← mapDense]
    rfl
  have hE : ∀ {l : List (Option Edge)}, l = f.edgeSel → ∀ e, (l = [] ∧ e ∈ inp.edges ∨ some e ∈ l) → inp.IsEdge e := by
    rintro l rfl e (⟨-, h⟩ | h)
    · exact Or.inl h
    · exact hsel e h
  unfold edgeUpdate edgeGenerate
  cases sch with
  | linear =>
    obtain ⟨a, b, c, d⟩ := hcopy (copyPoints_ok hv f) (copyPoints_ok hv' f)
    refine runFilter_alikeE lib inp (sim_edgeOutputPoints inp ⟨a, b, c⟩ fun e he => ?_)
    have he := hE d e he
    rw [linearPoint_ok hv he, linearPoint_ok hv' he, hv.coord_map (hv.isEdge_lt he).1, hv.coord_map (hv.isEdge_lt he).2,
      ← aff_mid]
    rfl
  | loop =>
    have hr := hn.ring (Or.inl rfl)
    have hi := hn.noIsolated rfl
    obtain ⟨a, b, c, d⟩ := hcopy (loopEdgeCopy_ok cosn hv hr hi f) (loopEdgeCopy_ok cosn hv' hr.mapPoints hi.mapPoints f)
    exact runFilter_alikeE lib inp (sim_edgeOutputPoints inp ⟨a, b, c⟩ fun e he => loopPoint_map φ hv hr (hE d e he))
  | butterfly =>
    have hr := hn.ring (Or.inr rfl)
    obtain ⟨a, b, c, d⟩ := hcopy (copyPoints_ok hv f) (copyPoints_ok hv' f)
    exact runFilter_alikeE lib inp (sim_edgeOutputPoints inp ⟨a, b, c⟩ fun e he => butterflyPoint_map φ hv hr (hE d e he))

end affine

example : (edgeUpdate .loop someLib cos0 (Filt.new.setEdges [some (1, 0), none, some (4, 2)])
      (patchMesh.mapPoints fun p => p.1)).1 =
    (edgeUpdate .loop someLib cos0 (Filt.new.setEdges [some (1, 0), none, some (4, 2)]) patchMesh).1.map
      (Mesh.mapPoints fun p => p.1) :=
  C19_affine_edge someLib cos0 (patchMesh_needs _) patchMesh_edges (LinearMap.fst ℚ ℚ (ℚ × ℚ)).toAffineMap

section hull
variable {K P P' D : Type} [Field K] [AddCommGroup P] [Module K P] [AddCommGroup P'] [Module K P']
variable [LinearOrder K] [IsStrictOrderedRing K]

/-- C20 for the Linear and Loop edge filters, on all valid meshes (also when the boundary touches itself). -/
theorem C20_hull_edge {sch : EdgeScheme} (hs : sch ≠ .butterfly) {lib : QELib} {cosn : Nat → K} {f f' : Filt}
    {inp out : Mesh P D} (hn : sch.toScheme.Needs inp) (hsel : inp.EdgeSelOK f.edgeSel)
    (h : edgeUpdate sch lib cosn f inp = (.ok out, f')) : ∀ v p, out.pos v = some p → p ∈ inp.hull K := by
  have hv := hn.valid
  refine mem_of_dense (edgeUpdate_result hn hsel h).points fun p hp => ?_
  rcases List.mem_append.1 hp with hp | hp
  · obtain ⟨v, h1, rfl⟩ := List.mem_map.1 hp
    exact coord_mem_hull hv (List.mem_range.1 h1)
  · obtain ⟨e, h1, rfl⟩ := List.mem_map.1 hp
    have he := selectedEdges_isEdge hsel h1
    have hmid := mid_mem (convex_convexHull K _) (coord_mem_hull (K := K) hv (hv.isEdge_lt he).1)
      (coord_mem_hull hv (hv.isEdge_lt he).2)
    cases sch with
    | butterfly => exact absurd rfl hs
    | linear =>
      rw [valueOf_eq (np := schemePoint EdgeScheme.linear.toScheme K inp) (linearPoint_ok hv he)]
      exact hmid
    | loop =>
      by_cases hb : e ∈ dartsOf inp.tris ∧ e.sym ∈ dartsOf inp.tris
      · obtain ⟨a, b⟩ := e
        obtain ⟨c, hc⟩ := dartsOf_iff_hasTri.1 hb.1
        obtain ⟨d, hd⟩ := dartsOf_iff_hasTri.1 hb.2
        rw [valueOf_eq (np := schemePoint EdgeScheme.loop.toScheme K inp) (loopPoint_inner hv (hn.ring (Or.inl rfl)) hc hd)]
        exact loop_mem (convex_convexHull K _) (coord_mem_hull hv (hv.isEdge_lt he).1)
          (coord_mem_hull hv (hv.isEdge_lt he).2) (coord_mem_hull hv (hv.isEdge_lt (hv.edge13 hc)).2)
          (coord_mem_hull hv (hv.isEdge_lt (hv.edge13 hd)).2)
      · rw [valueOf_eq (np := schemePoint EdgeScheme.loop.toScheme K inp) (loopPoint_border hv he hb)]
        exact hmid

end hull

example (out : Mesh Q3 Nat) (f' : Filt) (h : edgeUpdate .loop someLib cos0
    (Filt.new.setEdges [some (1, 0), none, some (4, 2)]) patchMesh = (.ok out, f')) (v : PId) (p : Q3)
    (hp : out.pos v = some p) : p ∈ patchMesh.hull ℚ :=
  C20_hull_edge (by decide) (patchMesh_needs _) patchMesh_edges h v p hp

end Verif
