import Verif.Proofs.Compact
import Verif.Proofs.Failures
import Verif.Properties.Points
import Verif.Properties.Numbering
import Verif.Properties.Samples
/-
C37: points that belong to no triangle.
-/
namespace Verif
set_option linter.unusedSectionVars false
variable {K P D : Type} [Field K] [AddCommGroup P] [Module K P]

/-- C37. For every valid mesh there is "the mesh without its isolated points": the same cells with the same ids, data and
positions, and the same edges and rings, under other point ids. -/
theorem C37_mesh_without_them {m : Mesh P D} (hv : m.Valid) : ∃ (ρ : PId → PId) (m' : Mesh P D), m'.Valid ∧ m'.NoIsolated ∧
    Renamed ρ m m' ∧ RingRenamed ρ m m' ∧ (m.RingOK → m'.RingOK) ∧ m'.edges = m.edges.map (Edge.rename ρ) ∧
    m'.cellData = m.cellData := exists_compact hv

/-- `isoMesh` has two isolated points -/
theorem isoMesh_isolated : isoMesh.Isolated 0 ∧ isoMesh.Isolated 7 := by
  unfold Mesh.Isolated
  rw [isoMesh_ok.2.2]
  decide

example : ∃ (ρ : PId → PId) (m' : Mesh Q3 Nat), m'.Valid ∧ m'.NoIsolated ∧ Renamed ρ isoMesh m' :=
  let ⟨ρ, m', h1, h2, h3, _⟩ := C37_mesh_without_them isoMesh_ok.1
  ⟨ρ, m', h1, h2, h3⟩

theorem isoMesh_needs {sch : Scheme} (hs : sch ≠ .loop) : sch.Needs isoMesh :=
  ⟨isoMesh_ok.1, fun _ => isoMesh_ok.2.1, fun h => absurd h hs⟩

theorem isoMesh_sel : isoMesh.SelOK [1, 3] := by unfold Mesh.SelOK; decide

/-- C37, the cell filters other than Loop: on a mesh `m` with isolated points and on the mesh `m'` without them the filter
returns, and the outputs have the same cells under the same ids with the same corners at the same positions, the same cell
data and the same cells recorded for the next run; the isolated points are kept where they are and stay isolated.
Missing: Loop, for which it is false (`C37_loop_refuted`). -/
theorem C37_isolated_points_partial {sch : Scheme} (hs : sch ≠ .loop) {ρ : PId → PId} {m m' : Mesh P D}
    (hn : sch.Needs m) (hn' : sch.Needs m') (R : Renamed ρ m m') (Q : sch = .butterfly → RingRenamed ρ m m')
    (lib : QELib) (cosn : Nat → K) {f : Filt} (hsel : m.SelOK f.cells)
    (hmax : sch = .sqrt3 → max m.points.length m'.points.length + (m.selected f.cells).length ≤ idMax) :
    ∃ out f₁ out' f₂, cellUpdate sch lib cosn f m = (.ok out, f₁) ∧ cellUpdate sch lib cosn f m' = (.ok out', f₂) ∧
      (∃ ρ', Renamed ρ' out out') ∧ out'.coordTris = out.coordTris ∧ f₂.cells = f₁.cells ∧
      ((∀ k, m'.dataAt k = m.dataAt k) → ∀ k, out'.dataAt k = out.dataAt k) ∧
      ∀ v, m.Isolated v → out.pos v = m.pos v ∧ out.Isolated v := by
  have kept : ∀ {out f₁}, cellUpdate sch lib cosn f m = (.ok out, f₁) → ∀ v, m.Isolated v → out.pos v = m.pos v := by
    intro out f₁ h v hi
    rw [hn.valid.pos_eq hi.1]
    exact C06_original_points_kept hs hn.valid.points_dense h v _ (hn.valid.pos_eq hi.1)
  by_cases h3 : sch = .sqrt3
  · subst h3
    have hm := hmax rfl
    obtain ⟨out, f₁, out', f₂, h1, h2, h3, h4, h5⟩ := sqrt3Update_rename R hn.valid hn'.valid lib lib cosn (f := f) (g := f) rfl hsel
      (Nat.le_trans (Nat.add_le_add_right (Nat.le_max_left _ _) _) hm)
      (Nat.le_trans (Nat.add_le_add_right (Nat.le_max_right _ _) _) hm)
    refine ⟨out, f₁, out', f₂, h1, h2, ⟨_, h3⟩, h3.coordTris, h4, h5, fun v hi => ⟨kept h1 v hi, ?_⟩⟩
    exact (sqrt3Update_result hn.valid hsel (Nat.le_trans (Nat.add_le_add_right (Nat.le_max_left _ _) _) hm) h1).isolated
      hn.valid hi
  · obtain ⟨out, f₁, out', f₂, h1, h2, h4, h5, h6⟩ := cellUpdate_rename h3 R hn hn' Q lib lib cosn (f := f) (g := f) rfl
      (fun h => absurd h hs) hsel
    exact ⟨out, f₁, out', f₂, h1, h2, ⟨_, h4⟩, h4.coordTris, h5, h6, fun v hi => ⟨kept h1 v hi,
      (cellUpdate_result h3 hn hsel h1).1.isolated hi⟩⟩

/-- `isoMesh` against `patchMesh`, on which cells 1 and 3 are selected -/
example {sch : Scheme} (hs : sch ≠ .loop) : ∃ out f₁ out' f₂,
    cellUpdate sch someLib cos0 (usedFilt [1, 3]) isoMesh = (.ok out, f₁) ∧
    cellUpdate sch someLib cos0 (usedFilt [1, 3]) patchMesh = (.ok out', f₂) ∧ out'.coordTris = out.coordTris ∧
    out.pos 0 = some (9, 9, 9) ∧ out.Isolated 7 := by
  obtain ⟨out, f₁, out', f₂, h1, h2, -, h3, -, -, h4⟩ := C37_isolated_points_partial hs (isoMesh_needs hs)
    (patchMesh_needs sch) isoMesh_renamed (fun _ => isoMesh_rings) someLib cos0 (f := usedFilt [1, 3]) isoMesh_sel
    (fun _ => by decide)
  exact ⟨out, f₁, out', f₂, h1, h2, h3, (h4 0 isoMesh_isolated.1).1, (h4 7 isoMesh_isolated.2).2⟩

/-- C37, the Linear and Butterfly edge filters.  The two lists name the same edges.  Missing: Loop, for which it is false
(`C37_loop_edge_refuted`). -/
theorem C37_isolated_points_edge_partial {sch : EdgeScheme} (hs : sch ≠ .loop) {ρ : PId → PId} {m m' : Mesh P D}
    (hv : m.Valid) (hv' : m'.Valid) (R : Renamed ρ m m')
    (Q : sch = .butterfly → m.RingOK ∧ m'.RingOK ∧ RingRenamed ρ m m') (lib : QELib) (cosn : Nat → K) {f g : Filt}
    (hE : f.edgeSel = [] → m'.edges = m.edges.map (Edge.rename ρ))
    (hfg : g.edgeSel = f.edgeSel.map (Option.map (Edge.rename ρ)))
    (hsel : m.EdgeSelOK f.edgeSel) :
    ∃ out f₁ out' f₂, edgeUpdate sch lib cosn f m = (.ok out, f₁) ∧ edgeUpdate sch lib cosn g m' = (.ok out', f₂) ∧
      (∃ ρ', Renamed ρ' out out') ∧ out'.coordTris = out.coordTris ∧
      ((∀ k, m'.dataAt k = m.dataAt k) → ∀ k, out'.dataAt k = out.dataAt k) ∧
      ∀ v, m.Isolated v → out.pos v = m.pos v ∧ out.Isolated v := by
  have hn : sch.toScheme.Needs m := by
    cases sch with
    | linear => exact ⟨hv, fun h => by rcases h with h | h <;> (cases h), fun h => (by cases h)⟩
    | loop => exact absurd rfl hs
    | butterfly => exact ⟨hv, fun _ => (Q rfl).1, fun h => (by cases h)⟩
  have hn' : sch.toScheme.Needs m' := by
    cases sch with
    | linear => exact ⟨hv', fun h => by rcases h with h | h <;> (cases h), fun h => (by cases h)⟩
    | loop => exact absurd rfl hs
    | butterfly => exact ⟨hv', fun _ => (Q rfl).2.1, fun h => (by cases h)⟩
  obtain ⟨out, f₁, out', f₂, h1, h2, ⟨ρ', -, -, h4⟩, h5, h6⟩ :=
    C45_numbering_edge R hn hn' (fun h => (Q h).2.2) lib lib cosn hE hfg hsel
  refine ⟨out, f₁, out', f₂, h1, h2, ⟨_, h4⟩, h5, h6, fun v hi => ⟨?_, (edgeUpdate_result hn hsel h1).isolated hi⟩⟩
  rw [hn.valid.pos_eq hi.1]
  exact C06_original_points_kept_edge hn.valid.points_dense h1 v _ (hn.valid.pos_eq hi.1)

/-- the edge from point 3 to point 2 of `isoMesh` is the edge from 2 to 1 of `patchMesh` -/
example : ∃ out f₁ out' f₂,
    edgeUpdate .butterfly someLib cos0 ⟨[], [some (3, 2), none], true, fun _ => none⟩ isoMesh = (.ok out, f₁) ∧
    edgeUpdate .butterfly someLib cos0 ⟨[], [some (2, 1), none], true, fun _ => none⟩ patchMesh = (.ok out', f₂) ∧
    out'.coordTris = out.coordTris ∧ out.Isolated 0 := by
  obtain ⟨out, f₁, out', f₂, h1, h2, -, h3, -, h4⟩ := C37_isolated_points_edge_partial (sch := .butterfly) (by decide)
    isoMesh_ok.1 patchMesh_ok.1 isoMesh_renamed (fun _ => ⟨isoMesh_ok.2.1, patchMesh_ok.2.1, isoMesh_rings⟩) someLib cos0
    (f := ⟨[], [some (3, 2), none], true, fun _ => none⟩) (g := ⟨[], [some (2, 1), none], true, fun _ => none⟩)
    (by decide) (by decide) (by
      intro e he
      simp only [List.mem_cons, Option.some.injEq, List.not_mem_nil, or_false, reduceCtorEq] at he
      unfold Mesh.IsEdge
      subst he
      decide)
  exact ⟨out, f₁, out', f₂, h1, h2, h3, (h4 0 isoMesh_isolated.1).2⟩

theorem isolated_no_edge {m : Mesh P D} (hv : m.Valid) {v w : PId} (h : m.Isolated v) : ¬ m.IsEdge (v, w) := by
  intro he
  obtain ⟨t, ht, hvt⟩ := (Renamed.used_of_edge hv he).1
  exact h.2 t ht hvt

theorem isolated_pointEdge {m : Mesh P D} (hv : m.Valid) (hr : m.RingOK) {v : PId} (h : m.Isolated v) :
    m.ring.pointEdge v = none := by
  rcases he : m.ring.pointEdge v with _ | ⟨a, b⟩
  · rfl
  · obtain ⟨h1, h2⟩ := hr.point_edge _ _ he
    simp only at h2
    subst h2
    exact absurd h1 (isolated_no_edge hv h)

theorem writePoints_fails {val : PId → P → Except Fail P} {F : Fail} {l : List (PId × P)}
    (hall : ∀ kp ∈ l, (∃ q, val kp.1 kp.2 = .ok q) ∨ val kp.1 kp.2 = .error F)
    (hex : ∃ kp ∈ l, val kp.1 kp.2 = .error F) (s : St P D) : (writePoints val l s).1 = .error F := by
  induction l generalizing s with
  | nil => obtain ⟨kp, h, _⟩ := hex; cases h
  | cons x l ih =>
    unfold writePoints at ih ⊢
    simp only [Prog.forEach, Prog.bind, Prog.lift]
    rcases hall x (by simp) with ⟨q, hq⟩ | hq
    · rw [hq]
      refine ih (fun kp h => hall kp (by simp [h])) ?_ _
      obtain ⟨kp, h1, h2⟩ := hex
      rcases List.mem_cons.1 h1 with rfl | h1
      · rw [hq] at h2; cases h2
      · exact ⟨kp, h1, h2⟩
    · rw [hq]

theorem isolated_or_edge {m : Mesh P D} (hv : m.Valid) {v : PId} (h : v < m.points.length) :
    m.Isolated v ∨ ∃ w, m.IsEdge (v, w) := by
  by_cases hi : m.Isolated v
  · exact Or.inl hi
  · refine Or.inr ?_
    have : ∃ t ∈ m.tris, v ∈ t.verts := by
      by_contra hc
      exact hi ⟨h, fun t ht hvt => hc ⟨t, ht, hvt⟩⟩
    obtain ⟨t, ht, hvt⟩ := this
    obtain ⟨y, z, hi⟩ := Tri.mem_verts.1 hvt
    exact ⟨y, hv.isEdge_of_dart (mem_dartsOf.2 ⟨t, ht, hi.dart⟩)⟩

theorem mem_points_of_lt {m : Mesh P D} (hv : m.Valid) {v : PId} (h : v < m.points.length) : (v, m.coord v) ∈ m.points :=
  mem_of_find? (hv.pos_eq h)

theorem lt_of_mem_points {m : Mesh P D} (hv : m.Valid) {kp : PId × P} (h : kp ∈ m.points) : kp.1 < m.points.length := by
  have : kp.1 ∈ m.points.map Prod.fst := List.mem_map_of_mem h
  rwa [hv.points_dense, List.mem_range] at this

/-- C37 is false of the Loop cell filter, exactly as follows.  The run dereferences a null edge if it smooths an isolated
point — and it smooths every point when its member `m_Uniform` is set, which it is on a new filter object and after a run
without selection, and otherwise those whose id is the id of a selected cell.  In all other cases it returns, the isolated
points keep their place and stay isolated, and the triangles are the children of the input triangles. -/
theorem C37_loop_refuted {m : Mesh P D} (hv : m.Valid) (hr : m.RingOK) (lib : QELib) (cosn : Nat → K) {f : Filt}
    (hsel : m.SelOK f.cells) :
    ((∃ v, m.Isolated v ∧ (f.uniform = true ∨ v ∈ f.cells)) → (cellUpdate .loop lib cosn f m).1 = .error (.ub .nullDeref)) ∧
    ((∀ v, m.Isolated v → f.uniform = false ∧ v ∉ f.cells) →
      ∃ out f', cellUpdate .loop lib cosn f m = (.ok out, f') ∧ out.tris = m.tris.flatMap (Tri.children (m.edgePoint f.cells)) ∧
        ∀ v, m.Isolated v → out.pos v = m.pos v ∧ out.Isolated v) := by
  constructor
  · rintro ⟨v, hi, hsm⟩
    refine cellUpdate_error ?_
    have hsmooth : ∀ kp ∈ m.points, (∃ q, smoothingPoint cosn m kp.1 kp.2 = .ok q) ∨
        smoothingPoint cosn m kp.1 kp.2 = .error (.ub .nullDeref) := by
      intro kp hk
      rcases isolated_or_edge hv (lt_of_mem_points hv hk) with h | ⟨w, hw⟩
      · right
        unfold smoothingPoint
        rw [isolated_pointEdge hv hr h]
      · left
        obtain ⟨r, _, _, h⟩ := smoothingPoint_ok cosn hv hr hw kp.2
        exact ⟨_, h⟩
    have hv0 : smoothingPoint cosn m v (m.coord v) = .error (.ub .nullDeref) := by
      unfold smoothingPoint
      rw [isolated_pointEdge hv hr hi]
    have hcopy : (loopCopy cosn m ⟨f, Mesh.empty⟩).1 = .error (.ub .nullDeref) := by
      unfold loopCopy
      change (if f.uniform = true then writePoints _ _ _ else Prog.bind (Prog.lift (loopSmoothSet m f.cells)) _ _).1 = _
      by_cases hu : f.uniform = true
      · rw [if_pos hu]
        exact writePoints_fails hsmooth ⟨_, mem_points_of_lt hv hi.1, hv0⟩ _
      · rw [if_neg hu]
        obtain ⟨set, h1, h2⟩ := loopSmoothSet_ok hv f.cells hsel
        rw [h1, lift_ok_bind]
        refine writePoints_fails ?_ ⟨_, mem_points_of_lt hv hi.1, ?_⟩ _
        · intro kp hk
          split
          · exact hsmooth kp hk
          · exact Or.inl ⟨_, rfl⟩
        · have : set.contains v = true := by
            rw [List.contains_iff_mem, h2]
            exact hsm.resolve_left hu
          simp only [this, if_true]
          exact hv0
    show (generateOutputPoints (loopCopy cosn m) (loopAddNew K m) m ⟨f, Mesh.empty⟩).1 = _
    unfold generateOutputPoints Prog.bind
    rcases hc : loopCopy cosn m ⟨f, Mesh.empty⟩ with ⟨r, s⟩
    rw [hc] at hcopy
    simp only at hcopy
    subst hcopy
    rfl
  · intro hno
    obtain ⟨out, f', h1, A⟩ := cellUpdate_ok' (sch := .loop) (by decide) lib cosn (f := f) hv (fun _ => hr) (by
      intro _ v hlt hsm
      rcases isolated_or_edge hv hlt with h | h
      · obtain ⟨h1, h2⟩ := hno v h
        rw [h1, Bool.false_or, List.contains_iff_mem] at hsm
        exact absurd hsm h2
      · exact h) hsel
    refine ⟨out, f', h1, A.built.tris, fun v hi => ⟨?_, A.isolated hi⟩⟩
    rw [pos_base A.points hi.1, hv.pos_eq hi.1]
    obtain ⟨h2, h3⟩ := hno v hi
    show some (loopBase cosn m f v) = _
    unfold loopBase
    have : f.cells.contains v = false := by
      rw [Bool.eq_false_iff]; intro h; exact h3 (List.contains_iff_mem.1 h)
    rw [h2, this]; rfl

/-- without selection the run ends at the null edge of point 0; with the cells 1 and 3 selected it returns, since the
isolated points of `isoMesh` are 0 and 7 -/
example : (cellUpdate .loop someLib cos0 (Filt.new) isoMesh).1 = .error (.ub .nullDeref) :=
  (C37_loop_refuted isoMesh_ok.1 isoMesh_ok.2.1 someLib cos0 (selOK_nil _)).1 ⟨0, isoMesh_isolated.1, Or.inl rfl⟩

example : ∃ out f', cellUpdate .loop someLib cos0 (usedFilt [1, 3]) isoMesh = (.ok out, f') ∧ out.Isolated 0 := by
  obtain ⟨out, f', h1, -, h2⟩ := (C37_loop_refuted isoMesh_ok.1 isoMesh_ok.2.1 someLib cos0 (f := usedFilt [1, 3])
    isoMesh_sel).2 (by
      intro v hi
      refine ⟨rfl, ?_⟩
      intro hv
      have : v = 1 ∨ v = 3 := by simpa [usedFilt] using hv
      rcases this with rfl | rfl
      · exact hi.2 (1, 2, 3) (by rw [isoMesh_ok.2.2]; decide) (by decide)
      · exact hi.2 (1, 2, 3) (by rw [isoMesh_ok.2.2]; decide) (by decide))
  exact ⟨out, f', h1, (h2 0 isoMesh_isolated.1).2⟩

/-- C37 is false of the Loop edge filter: with an isolated point in the mesh every run dereferences a null edge, whatever
the selection. -/
theorem C37_loop_edge_refuted {m : Mesh P D} (hv : m.Valid) (hr : m.RingOK) (lib : QELib) (cosn : Nat → K) (f : Filt)
    {v : PId} (hi : m.Isolated v) : (edgeUpdate .loop lib cosn f m).1 = .error (.ub .nullDeref) := by
  have hcopy : (loopEdgeCopy cosn m ⟨f, Mesh.empty⟩).1 = .error (.ub .nullDeref) := by
    unfold loopEdgeCopy
    change (writePoints (loopEdgeValue cosn m f.edgeSel) _ _).1 = _
    refine writePoints_fails ?_ ⟨_, mem_points_of_lt hv hi.1, ?_⟩ _
    · intro kp hk
      rcases isolated_or_edge hv (lt_of_mem_points hv hk) with h | ⟨w, hw⟩
      · right
        unfold loopEdgeValue
        rw [isolated_pointEdge hv hr h]
      · left
        exact ⟨_, loopEdgeValue_ok cosn hr hw f.edgeSel kp.2⟩
    · unfold loopEdgeValue
      simp only [isolated_pointEdge hv hr hi]
  unfold edgeUpdate runFilter edgeGenerate generateData edgeOutputPoints Prog.bind
  rcases hc : loopEdgeCopy cosn m ⟨f, Mesh.empty⟩ with ⟨r, s⟩
  rw [hc] at hcopy
  simp only at hcopy
  subst hcopy
  simp only [hc]

example (sel : List (Option Edge)) :
    (edgeUpdate .loop someLib cos0 ⟨[], sel, false, fun _ => none⟩ isoMesh).1 = .error (.ub .nullDeref) :=
  C37_loop_edge_refuted isoMesh_ok.1 isoMesh_ok.2.1 someLib cos0 _ isoMesh_isolated.2

end Verif
