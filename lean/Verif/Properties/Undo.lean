import Verif.Proofs.Undo
import Verif.Proofs.CheckedLib
import Verif.Properties.Limit
import Verif.Properties.Affine
import Verif.Properties.RimIn
import Verif.Properties.Links
/-
C100: a uniform run loses nothing.
-/
namespace Verif
set_option linter.unusedSectionVars false

section
variable {K P D : Type} [Field K] [AddCommGroup P] [Module K P] {lib lib' : QELib} {cosn : Nat → K} {m m' out out' : Mesh P D} {f f' g g' : Filt}
  {sch : Scheme}

/-- C100. Two meshes from which a uniform run of the Linear or of the ModifiedButterfly filter makes the same points and the same
triangles had the same points and the same triangles. -/
theorem C100_kept (hs : sch = .linear ∨ sch = .butterfly) (hn : sch.Needs m) (hn' : sch.Needs m') (hf : f.cells = []) (hg : g.cells = [])
    (h : cellUpdate sch lib cosn f m = (.ok out, f')) (h' : cellUpdate sch lib' cosn g m' = (.ok out', g'))
    (ho : SameDrawing out out') : SameDrawing m m' := interp_undo hs hn hn' hf hg h h' ho.1 ho.2

/-- C100 for the edge filters, all three schemes. -/
theorem C100_edge {sch : EdgeScheme} (hn : sch.toScheme.Needs m) (hn' : sch.toScheme.Needs m') (hf : f.edgeSel = []) (hg : g.edgeSel = [])
    (h : edgeUpdate sch lib cosn f m = (.ok out, f')) (h' : edgeUpdate sch lib' cosn g m' = (.ok out', g'))
    (ho : SameDrawing out out') : SameDrawing m m' := edge_undo hn hn' hf hg h h' ho.1 ho.2

/-- C100 for SquareThree; the output keeps neither the order of the triangles nor their first corners. -/
theorem C100_sqrt3 (hv : m.Valid) (hv' : m'.Valid) (hmax : m.points.length + m.cells.length ≤ idMax)
    (hmax' : m'.points.length + m'.cells.length ≤ idMax) (hf : f.cells = []) (hg : g.cells = [])
    (h : cellUpdate .sqrt3 lib cosn f m = (.ok out, f')) (h' : cellUpdate .sqrt3 lib' cosn g m' = (.ok out', g'))
    (ho : SameUnordered out out') : SameUnordered m m' :=
  sqrt3_undo hv hv' (by simpa [Mesh.selected, hv.tris_length] using hmax) (by simpa [Mesh.selected, hv'.tris_length] using hmax')
    hf hg h h' ho

/-- C100, any number of levels of Linear or ModifiedButterfly. -/
theorem C100_kept_levels (hs : sch = .linear ∨ sch = .butterfly) (hl : sch = .butterfly → lib.Lawful) (hl' : sch = .butterfly → lib'.Lawful)
    (hn : sch.Needs m) (hn' : sch.Needs m') {f g : Iter} (hf : f.cells = []) (hg : g.cells = []) (hL : g.levels = f.levels)
    (h : (iterUpdate sch lib cosn f m).1 = .ok out) (h' : (iterUpdate sch lib' cosn g m').1 = .ok out')
    (ho : SameDrawing out out') : SameDrawing m m' := by
  have h3 : sch ≠ .sqrt3 := by rcases hs with rfl | rfl <;> decide
  have h4 : sch ≠ .loop := by rcases hs with rfl | rfl <;> decide
  have l1 : sch = .loop ∨ sch = .butterfly → lib.Lawful := fun h => h.elim (fun h => absurd h h4) hl
  have l2 : sch = .loop ∨ sch = .butterfly → lib'.Lawful := fun h => h.elim (fun h => absurd h h4) hl'
  rw [iterUpdate_eq, hf] at h
  rw [iterUpdate_eq, hg, hL] at h'
  rcases k1 : manyLevels sch lib cosn (levelsOf f.levels) (m, []) with _ | ⟨o, s⟩
  · rw [k1] at h; cases h
  rcases k2 : manyLevels sch lib' cosn (levelsOf f.levels) (m', []) with _ | ⟨o', s'⟩
  · rw [k2] at h'; cases h'
  rw [k1] at h; rw [k2] at h'
  cases h; cases h'
  exact levels_undo l1 l2 (fun _ => True) SameDrawing (fun _ _ _ _ _ _ => trivial)
    (fun a b c d x y ha hb _ _ _ hc hd hr => interp_undo hs ha hb (f := Filt.new.setCells []) (g := Filt.new.setCells []) rfl rfl hc hd hr.1 hr.2)
    _ hn hn' trivial (fun h => absurd h h3) (fun h => absurd h h3) k1 k2 ho

/-- C100, any number of levels of SquareThree. -/
theorem C100_sqrt3_levels (hv : m.Valid) (hv' : m'.Valid) {f g : Iter} (hf : f.cells = []) (hg : g.cells = []) (hL : g.levels = f.levels)
    (hid : Scheme.sqrt3.IdsLeft (max 1 f.levels) m []) (hid' : Scheme.sqrt3.IdsLeft (max 1 f.levels) m' [])
    (h : (iterUpdate .sqrt3 lib cosn f m).1 = .ok out) (h' : (iterUpdate .sqrt3 lib' cosn g m').1 = .ok out')
    (ho : SameUnordered out out') : SameUnordered m m' := by
  rw [iterUpdate_eq, hf] at h
  rw [iterUpdate_eq, hg, hL] at h'
  rw [levelsOf_eq] at hid hid'
  rcases k1 : manyLevels .sqrt3 lib cosn (levelsOf f.levels) (m, []) with _ | ⟨o, s⟩
  · rw [k1] at h; cases h
  rcases k2 : manyLevels .sqrt3 lib' cosn (levelsOf f.levels) (m', []) with _ | ⟨o', s'⟩
  · rw [k2] at h'; cases h'
  rw [k1] at h; rw [k2] at h'
  cases h; cases h'
  exact levels_undo (sch := .sqrt3) (by simp) (by simp) (fun _ => True) SameUnordered (fun _ _ _ _ _ _ => trivial)
    (fun a b c d x y ha hb _ h1 h2 hc hd hr => sqrt3_undo ha.valid hb.valid (h1 rfl) (h2 rfl) (f := Filt.new.setCells [])
      (g := Filt.new.setCells []) rfl rfl hc hd hr)
    _ ⟨hv, by simp, by simp⟩ ⟨hv', by simp, by simp⟩ trivial hid hid' k1 k2 ho

end

section loop
variable {V D : Type} [AddCommGroup V] [Module ℝ V] {lib lib' : QELib} {m m' out out' : Mesh V D} {f' g' : Filt}

/-- C100: where an inner point was before a uniform run of a new Loop filter, from the output alone: its place there, its neighbours
there and their number. -/
theorem C100_loop_inner (hn : Scheme.loop.Needs m) (h : cellUpdate .loop lib realCos Filt.new m = (.ok out, f'))
    {v : PId} {p p' : V} (hp : m.pos v = some p) (hp' : out.pos v = some p') {N : List PId} (hN : out.InnerAt v N) {q : PId → V}
    (hq : ∀ w ∈ N, out.pos w = some (q w)) (hin : ∃ N0, m.InnerAt v N0) : p = loopUndo N.length p' (N.map q).sum := by
  obtain ⟨N0, hN0⟩ := hin
  obtain ⟨N1, h1, h2⟩ := inner_undo hn h (hn.valid.pos_lt hp) hN0
  rw [Mesh.coord_of_pos hp, Mesh.coord_of_pos hp'] at h2
  have hperm : N1.Perm N := (List.perm_ext_iff_of_nodup h1.nodup hN.nodup).2 fun w => by rw [h1.all, hN.all]
  rw [h2, hperm.length_eq, (hperm.map _).sum_eq, List.map_congr_left fun w hw => Mesh.coord_of_pos (hq w hw)]

/-- C100, the boundary. -/
theorem C100_loop_rim (hn : Scheme.loop.Needs m) (h : cellUpdate .loop lib realCos Filt.new m = (.ok out, f'))
    {v a b : PId} {p p' pa pb : V} (hp : m.pos v = some p) (hp' : out.pos v = some p') (hab : out.RimAt v a b) (ha : out.pos a = some pa)
    (hb : out.pos b = some pb) (hrim : ∃ x y, m.RimAt v x y) : p = loopRimUndo p' pa pb := by
  obtain ⟨x0, y0, hr⟩ := hrim
  obtain ⟨x, y, h1, h2⟩ := rim_undo hn h (hn.valid.pos_lt hp) hr
  rw [Mesh.coord_of_pos hp, Mesh.coord_of_pos hp'] at h2
  rw [h2]
  rcases (hab.only x).2 ((h1.only x).1 (.inl rfl)) with rfl | rfl <;> rcases (hab.only y).2 ((h1.only y).1 (.inr rfl)) with rfl | rfl
  · exact absurd rfl h1.ne
  · rw [Mesh.coord_of_pos ha, Mesh.coord_of_pos hb]
  · rw [Mesh.coord_of_pos ha, Mesh.coord_of_pos hb]; unfold loopRimUndo; module
  · exact absurd rfl h1.ne

/-- C100 for Loop, which moves all points, where the boundary does not touch itself. -/
theorem C100_loop (hn : Scheme.loop.Needs m) (hn' : Scheme.loop.Needs m') (hsb : m.SimpleBoundary)
    (h : cellUpdate .loop lib realCos Filt.new m = (.ok out, f')) (h' : cellUpdate .loop lib' realCos Filt.new m' = (.ok out', g'))
    (ho : SameDrawing out out') : SameDrawing m m' := loop_undo hn hn' hsb h h' ho.1 ho.2

/-- C100, any number of levels of Loop. -/
theorem C100_loop_levels (hl : lib.Lawful) (hl' : lib'.Lawful) (hn : Scheme.loop.Needs m) (hn' : Scheme.loop.Needs m') (hsb : m.SimpleBoundary)
    {f g : Iter} (hf : f.cells = []) (hg : g.cells = []) (hL : g.levels = f.levels)
    (h : (iterUpdate .loop lib realCos f m).1 = .ok out) (h' : (iterUpdate .loop lib' realCos g m').1 = .ok out')
    (ho : SameDrawing out out') : SameDrawing m m' := by
  rw [iterUpdate_eq, hf] at h
  rw [iterUpdate_eq, hg, hL] at h'
  rcases k1 : manyLevels .loop lib realCos (levelsOf f.levels) (m, []) with _ | ⟨o, s⟩
  · rw [k1] at h; cases h
  rcases k2 : manyLevels .loop lib' realCos (levelsOf f.levels) (m', []) with _ | ⟨o', s'⟩
  · rw [k2] at h'; cases h'
  rw [k1] at h; rw [k2] at h'
  cases h; cases h'
  exact levels_undo (fun _ => hl) (fun _ => hl') Mesh.SimpleBoundary SameDrawing
    (fun a b x ha hb hc => simple_split (by decide) ha (selOK_nil _) hc hb)
    (fun a b c d x y ha hb hi _ _ hc hd hr => loop_undo ha hb hi hc hd hr.1 hr.2)
    _ hn hn' hsb (fun h => by cases h) (fun h => by cases h) k1 k2 ho

end loop

/-- the patch with one corner lifted -/
def patchLifted : Mesh Q3 Nat := mk [(0, 0, 0), (4, 0, 0), (0, 4, 0), (2, -4, 0), (4, 4, 1), (-4, 2, 1 / 1000)] patch none

theorem patchLifted_ok : patchLifted.Valid ∧ patchLifted.RingOK ∧ patchLifted.NoIsolated ∧ patchLifted.tris = patch := mk_ok _ (by decide)

theorem patchLifted_needs (sch : Scheme) : sch.Needs patchLifted :=
  ⟨patchLifted_ok.1, fun _ => patchLifted_ok.2.1, fun _ => patchLifted_ok.2.2.1⟩

theorem patchLifted_other : ¬ SameDrawing patchMesh patchLifted := by
  intro h
  have := congrArg (fun x => AMap.find? x 5) h.1
  revert this
  decide +kernel

/-- one corner lifted a little shows in the output -/
example (sch : Scheme) (hs : sch = .linear ∨ sch = .butterfly) (out out' : Mesh Q3 Nat) (f' g' : Filt)
    (h : cellUpdate sch someLib cos0 Filt.new patchMesh = (.ok out, f'))
    (h' : cellUpdate sch checkedLib cos0 Filt.new patchLifted = (.ok out', g')) : ¬ SameDrawing out out' :=
  fun ho => patchLifted_other (C100_kept hs (patchMesh_needs _) (patchLifted_needs _) rfl rfl h h' ho)

example (sch : EdgeScheme) (out out' : Mesh Q3 Nat) (f' g' : Filt) (h : edgeUpdate sch someLib cos0 Filt.new patchMesh = (.ok out, f'))
    (h' : edgeUpdate sch checkedLib cos0 Filt.new patchLifted = (.ok out', g')) : ¬ SameDrawing out out' :=
  fun ho => patchLifted_other (C100_edge (patchMesh_needs _) (patchLifted_needs _) rfl rfl h h' ho)

example (sch : Scheme) (hs : sch = .linear ∨ sch = .butterfly) (n : Nat) (out out' : Mesh Q3 Nat)
    (h : (iterUpdate sch someLib cos0 ⟨[], n, []⟩ patchMesh).1 = .ok out)
    (h' : (iterUpdate sch checkedLib cos0 ⟨[], n, []⟩ patchLifted).1 = .ok out') : ¬ SameDrawing out out' :=
  fun ho => patchLifted_other (C100_kept_levels hs (fun _ => someLib_lawful) (fun _ => checkedLib_lawful) (patchMesh_needs _)
    (patchLifted_needs _) (f := ⟨[], n, []⟩) (g := ⟨[], n, []⟩) rfl rfl rfl h h' ho)

/-- the runs exist, and two meshes can agree after the run: other links inside -/
example (sch : Scheme) (hs : sch = .linear ∨ sch = .butterfly) : ∃ out out' f' g', cellUpdate sch someLib cos0 Filt.new patchMesh = (.ok out, f') ∧
    cellUpdate sch checkedLib cos0 Filt.new patchRelinked = (.ok out', g') ∧ SameDrawing out out' := by
  obtain ⟨out, out', f', g', h, h', hr, -⟩ := C99_cell_partial cos0 patchRelinked_same (patchMesh_needs sch) (patchRelinked_needs sch)
    (fun _ => patchMesh_simple) someLib checkedLib (SameSettings.refl Filt.new) (selOK_nil _) (fun h => by rcases hs with rfl | rfl <;> cases h)
  exact ⟨out, out', f', g', h, h', by rw [hr.eq], by rw [hr.eq]; rfl⟩

/-- the tetrahedron with its triangles turned round -/
def tetraTurned : Mesh Q3 Nat := mk [(0, 0, 0), (4, 0, 0), (0, 4, 0), (0, 0, 4)] [(1, 0, 2), (2, 0, 3), (3, 0, 1), (3, 1, 2)] none

theorem tetraTurned_ok : tetraTurned.Valid ∧ tetraTurned.RingOK ∧ tetraTurned.NoIsolated ∧
    tetraTurned.tris = [(1, 0, 2), (2, 0, 3), (3, 0, 1), (3, 1, 2)] := mk_ok _ (by decide)

theorem tetraTurned_other : ¬ SameUnordered tetraMesh tetraTurned := by
  intro h
  have := (h.2 0 1 2).2 (by rw [tetraMesh_ok.2.2.2]; unfold HasTri; decide)
  rw [tetraTurned_ok.2.2.2] at this
  revert this
  unfold HasTri
  decide

/-- a surface and the same one turned inside out -/
example (out out' : Mesh Q3 Nat) (f' g' : Filt) (h : cellUpdate .sqrt3 someLib cos0 Filt.new tetraMesh = (.ok out, f'))
    (h' : cellUpdate .sqrt3 checkedLib cos0 Filt.new tetraTurned = (.ok out', g')) : ¬ SameUnordered out out' :=
  fun ho => tetraTurned_other (C100_sqrt3 tetraMesh_ok.1 tetraTurned_ok.1 (by decide +kernel) (by decide +kernel) rfl rfl h h' ho)

example (out out' : Mesh Q3 Nat) (h : (iterUpdate .sqrt3 someLib cos0 ⟨[], 3, []⟩ tetraMesh).1 = .ok out)
    (h' : (iterUpdate .sqrt3 checkedLib cos0 ⟨[], 3, []⟩ tetraTurned).1 = .ok out') : ¬ SameUnordered out out' :=
  fun ho => tetraTurned_other (C100_sqrt3_levels tetraMesh_ok.1 tetraTurned_ok.1 (f := ⟨[], 3, []⟩) (g := ⟨[], 3, []⟩) rfl rfl rfl
    (fun _ => by decide +kernel) (fun _ => by decide +kernel) h h' ho)

/-- the patch on a line, one point elsewhere -/
noncomputable def patchMoved : Mesh ℝ Nat := mk [0, 4, 8, 12, 16, 21] patch none

theorem patchMoved_ok : patchMoved.Valid ∧ patchMoved.RingOK ∧ patchMoved.NoIsolated ∧ patchMoved.tris = patch := mk_ok _ (by decide)

theorem patchMoved_other : ¬ SameDrawing patchR patchMoved := by
  intro h
  have := congrArg (fun x => AMap.find? x 5) h.1
  simp [patchR, patchMoved, mk, meshOf, AMap.find?] at this

example (out out' : Mesh ℝ Nat) (f' g' : Filt) (h : cellUpdate .loop someLib realCos Filt.new patchR = (.ok out, f'))
    (h' : cellUpdate .loop checkedLib realCos Filt.new patchMoved = (.ok out', g')) : ¬ SameDrawing out out' :=
  fun ho => patchMoved_other (C100_loop ⟨patchR_ok.1, fun _ => patchR_ok.2.1, fun _ => patchR_ok.2.2.1⟩
    ⟨patchMoved_ok.1, fun _ => patchMoved_ok.2.1, fun _ => patchMoved_ok.2.2.1⟩ patchR_simple h h' ho)

example (n : Nat) (out out' : Mesh ℝ Nat) (h : (iterUpdate .loop someLib realCos ⟨[], n, []⟩ patchR).1 = .ok out)
    (h' : (iterUpdate .loop checkedLib realCos ⟨[], n, []⟩ patchMoved).1 = .ok out') : ¬ SameDrawing out out' :=
  fun ho => patchMoved_other (C100_loop_levels someLib_lawful checkedLib_lawful ⟨patchR_ok.1, fun _ => patchR_ok.2.1, fun _ => patchR_ok.2.2.1⟩
    ⟨patchMoved_ok.1, fun _ => patchMoved_ok.2.1, fun _ => patchMoved_ok.2.2.1⟩ patchR_simple (f := ⟨[], n, []⟩) (g := ⟨[], n, []⟩)
    rfl rfl rfl h h' ho)

/-- whatever the points of the output around point 0 of the tetrahedron are, they give back its place -/
example (out : Mesh ℝ Nat) (f' : Filt) (h : cellUpdate .loop someLib realCos Filt.new tetraR = (.ok out, f')) (p' : ℝ) (N : List PId)
    (q : PId → ℝ) (hp' : out.pos 0 = some p') (hN : out.InnerAt 0 N) (hq : ∀ w ∈ N, out.pos w = some (q w)) :
    loopUndo N.length p' (N.map q).sum = (0 : ℝ) :=
  (C100_loop_inner ⟨tetraR_ok.1, fun _ => tetraR_ok.2.1, fun _ => tetraR_ok.2.2.1⟩ h rfl hp' hN hq ⟨_, tetraR_innerAt⟩).symm

/-- such points exist -/
example (out : Mesh ℝ Nat) (f' : Filt) (h : cellUpdate .loop someLib realCos Filt.new tetraR = (.ok out, f')) : ∃ N, out.InnerAt 0 N := by
  obtain ⟨N, h1, -⟩ := inner_undo ⟨tetraR_ok.1, fun _ => tetraR_ok.2.1, fun _ => tetraR_ok.2.2.1⟩ h (by decide) tetraR_innerAt
  exact ⟨N, h1⟩

example (out : Mesh ℝ Nat) (f' : Filt) (h : cellUpdate .loop someLib realCos Filt.new patchR = (.ok out, f')) (a b : PId) (p' pa pb : ℝ)
    (hp' : out.pos 3 = some p') (hab : out.RimAt 3 a b) (ha : out.pos a = some pa) (hb : out.pos b = some pb) :
    loopRimUndo p' pa pb = (12 : ℝ) :=
  (C100_loop_rim ⟨patchR_ok.1, fun _ => patchR_ok.2.1, fun _ => patchR_ok.2.2.1⟩ h rfl hp' hab ha hb ⟨_, _, patchR_rimAt⟩).symm

end Verif
