import Verif.Proofs.Links
import Verif.Proofs.CheckedLib
import Verif.Properties.Samples
import Verif.Properties.Affine
import Verif.Properties.Conditional
/-
C99: the links between the edges inside a mesh do not show in the results.
-/
namespace Verif
set_option linter.unusedSectionVars false
variable {K P D : Type} [Field K] [AddCommGroup P] [Module K P] {lib lib' : QELib} {m m' : Mesh P D}

/-- C99. A cell filter given two meshes that differ in their links only (which edge is stored at a point, the order of the
edges around a point), as two mesh libraries or two ways of building the mesh may leave them, produces the same mesh but for
the links, with the same points in the same order, the same cells, data, edges and recorded cells - all four filters, with and
without selection, and also a Loop object that smooths some points only (C42).  Butterfly needs a boundary that does not touch
itself. -/
theorem C99_cell_partial {sch : Scheme} (cosn : Nat → K) (hm : SameButRings m m') (hn : sch.Needs m) (hn' : sch.Needs m')
    (hf : sch.RingsForced m) (lib lib' : QELib) {f g : Filt} (hfg : SameSettings f g) (hsel : m.SelOK f.cells)
    (hmax : sch = .sqrt3 → m.points.length + (m.selected f.cells).length ≤ idMax) :
    ∃ out out' f' g', cellUpdate sch lib cosn f m = (.ok out, f') ∧ cellUpdate sch lib' cosn g m' = (.ok out', g') ∧
      SameButRings out out' ∧ SameSettings f' g' := by
  obtain ⟨a, b, c, d, h⟩ := cellUpdate_alike cosn hm hn hn' hf lib lib' hfg hsel hmax
  exact ⟨a, c, b, d, h⟩

/-- C99 for the edge filters. -/
theorem C99_edge_partial {sch : EdgeScheme} (cosn : Nat → K) (hm : SameButRings m m') (hn : sch.toScheme.Needs m)
    (hn' : sch.toScheme.Needs m') (hf : sch.toScheme.RingsForced m) (lib lib' : QELib) {f g : Filt} (hfg : SameSettings f g)
    (hsel : m.EdgeSelOK f.edgeSel) :
    ∃ out out' f' g', edgeUpdate sch lib cosn f m = (.ok out, f') ∧ edgeUpdate sch lib' cosn g m' = (.ok out', g') ∧
      SameButRings out out' ∧ SameSettings f' g' := by
  obtain ⟨a, b, c, d, h⟩ := edgeUpdate_alike cosn hm hn hn' hf lib lib' hfg hsel
  exact ⟨a, c, b, d, h⟩

/-- C99: the iterative filter, over all its levels - the links that one level leaves to the next one do not matter either. -/
theorem C99_iterative_partial {sch : Scheme} (cosn : Nat → K) (hl : sch = .loop ∨ sch = .butterfly → lib.Lawful)
    (hl' : sch = .loop ∨ sch = .butterfly → lib'.Lawful) (hm : SameButRings m m') (hn : sch.Needs m) (hn' : sch.Needs m')
    (hf : sch.RingsForced m) {f g : Iter} (hc : g.cells = f.cells) (hL : g.levels = f.levels) (hsel : m.SelOK f.cells)
    (hid : sch.IdsLeft (max 1 f.levels) m f.cells) :
    ∃ out out', (iterUpdate sch lib cosn f m).1 = .ok out ∧ (iterUpdate sch lib' cosn g m').1 = .ok out' ∧
      SameButRings out out' := by
  have hLo : levelsOf f.levels = max 1 f.levels := by unfold levelsOf; split <;> omega
  obtain ⟨o, o', s, h1, h2, h3⟩ := manyLevels_alike cosn hl hl' (max 1 f.levels) hm hn hn' hf hsel hid
  refine ⟨o, o', ?_, ?_, h3⟩
  · rw [iterUpdate_eq, hLo, h1]; rfl
  · rw [iterUpdate_eq, hc, hL, hLo, h2]; rfl

section conditional
variable [LinearOrder K]

/-- C99: the conditional filter with a cell filter and the area criterion - after however many rounds. -/
theorem C99_conditional_area_partial {sch : Scheme} (cosn : Nat → K) (hl : sch = .loop ∨ sch = .butterfly → lib.Lawful)
    (hl' : sch = .loop ∨ sch = .butterfly → lib'.Lawful) (hm : SameButRings m m') (hv : m.Valid) (hi : sch = .loop → m.NoIsolated)
    (hf : sch = .butterfly → m.SimpleBoundary) (area : P → P → P → K) (A : K) (n : Nat)
    (hmax : sch = .sqrt3 → m.points.length + 4 ^ n * m.cells.length ≤ idMax) {c c' : Cond Filt CId}
    (hc : SameSettings (c.inner.setCells []) (c'.inner.setCells [])) :
    (condGenerate lib (condCellUpd sch lib cosn) (some (areaCompute area A)) n c m = none ∧
      condGenerate lib' (condCellUpd sch lib' cosn) (some (areaCompute area A)) n c' m' = none) ∨
    ∃ out out' d d', condGenerate lib (condCellUpd sch lib cosn) (some (areaCompute area A)) n c m = some (.ok out, d) ∧
      condGenerate lib' (condCellUpd sch lib' cosn) (some (areaCompute area A)) n c' m' = some (.ok out', d') ∧
      SameButRings out out' := by
  have hv' : m'.Valid := hm.valid hv
  obtain ⟨l, h1, h2, h3⟩ := condArea_start hv hl hi hmax (condCellUpd sch lib cosn) area A c
  obtain ⟨l', k1, k2, k3⟩ := condArea_start hv' hl' (fun h => hm.noIsolated (hi h)) (fun h => by rw [hm.eq]; exact hmax h)
    (condCellUpd sch lib' cosn) area A c'
  have hcp := copyGeometry_alike lib lib' hm
  have hll : l' = l := by
    rw [areaCompute_alike area A hcp, areaCompute_old area A _ c'.sel c.sel, h1] at k1
    cases k1; rfl
  subst hll
  rw [h3, k3]
  exact condArea_alike cosn hl hl' area A n hcp ⟨rfl, hc.edgeSel, hc.uniform⟩ h2 k2
    fun h => copyGeometry_simple lib hv (hf h)

/-- C99: the conditional filter with an edge filter and the length criterion. -/
theorem C99_conditional_length_partial {sch : EdgeScheme} (cosn : Nat → K) (hl : sch = .loop ∨ sch = .butterfly → lib.Lawful)
    (hl' : sch = .loop ∨ sch = .butterfly → lib'.Lawful) (hm : SameButRings m m') (hv : m.Valid) (hi : sch = .loop → m.NoIsolated)
    (hf : sch = .butterfly → m.SimpleBoundary) (len : P → P → K) (L : K) (n : Nat) {c c' : Cond Filt (Option Edge)}
    (hc : SameSettings (c.inner.setEdges []) (c'.inner.setEdges [])) :
    (condGenerate lib (condEdgeUpd sch lib cosn) (some (lengthCompute len L)) n c m = none ∧
      condGenerate lib' (condEdgeUpd sch lib' cosn) (some (lengthCompute len L)) n c' m' = none) ∨
    ∃ out out' d d', condGenerate lib (condEdgeUpd sch lib cosn) (some (lengthCompute len L)) n c m = some (.ok out, d) ∧
      condGenerate lib' (condEdgeUpd sch lib' cosn) (some (lengthCompute len L)) n c' m' = some (.ok out', d') ∧
      SameButRings out out' := by
  have hv' : m'.Valid := hm.valid hv
  obtain ⟨l, h1, h2, h3⟩ := condLength_start (n := n) hv hl hi (condEdgeUpd sch lib cosn) len L c
  obtain ⟨l', k1, k2, k3⟩ := condLength_start (n := n) hv' hl' (fun h => hm.noIsolated (hi h))
    (condEdgeUpd sch lib' cosn) len L c'
  have hcp := copyGeometry_alike lib lib' hm
  have hll : l' = l := by
    rw [lengthCompute_alike len L hcp, lengthCompute_old len L _ c'.sel c.sel, h1] at k1
    cases k1; rfl
  subst hll
  rw [h3, k3]
  exact condLength_alike cosn hl hl' len L n hcp ⟨hc.cells, rfl, hc.uniform⟩ h2 k2
    fun h => copyGeometry_simple lib hv (hf (toScheme_butterfly.1 h))

end conditional

/-- C99: Linear and SquareThree do not read the links at all: on every mesh, valid or not, the outcome - failures included - and
the filter object afterwards are the same. -/
theorem C99_unread {sch : Scheme} (hs : sch = .linear ∨ sch = .sqrt3) (cosn : Nat → K) (hm : SameButRings m m') (lib lib' : QELib)
    (f : Filt) : SameOutcome (cellUpdate sch lib cosn f m).1 (cellUpdate sch lib' cosn f m').1 ∧
      (cellUpdate sch lib' cosn f m').2 = (cellUpdate sch lib cosn f m).2 := by
  have h : cellGenerate sch cosn m' = cellGenerate sch cosn m := by
    rw [hm.eq]
    rcases hs with rfl | rfl
    · exact linear_withRing cosn m _
    · exact sqrt3_withRing cosn m _
  unfold cellUpdate
  rw [h]
  unfold runFilter
  rcases cellGenerate sch cosn m ⟨f, Mesh.empty⟩ with ⟨_ | _, s⟩
  · exact ⟨rfl, rfl⟩
  · exact ⟨rfl, rfl⟩

/-- C99: nor does the Linear edge filter. -/
theorem C99_unread_edge (cosn : Nat → K) (hm : SameButRings m m') (lib lib' : QELib)
    (f : Filt) : SameOutcome (edgeUpdate .linear lib cosn f m).1 (edgeUpdate .linear lib' cosn f m').1 ∧
      (edgeUpdate .linear lib' cosn f m').2 = (edgeUpdate .linear lib cosn f m).2 := by
  have h : edgeGenerate .linear cosn m' = edgeGenerate .linear cosn m := by
    rw [hm.eq]; exact linearEdge_withRing cosn m _
  unfold edgeUpdate
  rw [h]
  unfold runFilter
  rcases edgeGenerate .linear cosn m ⟨f, Mesh.empty⟩ with ⟨_ | _, s⟩
  · exact ⟨rfl, rfl⟩
  · exact ⟨rfl, rfl⟩

/-- three triangles that share one point only -/
def threeWings : List Tri := [(0, 1, 2), (0, 3, 4), (0, 5, 6)]

/-- the same triangles, the wings in another order around the common point -/
def wingsTurned : List Tri := [(0, 1, 2), (0, 5, 6), (0, 3, 4)]

def wingsMesh : Mesh Q3 Nat :=
  mk [(0, 0, 0), (4, 0, 0), (4, 4, 0), (-4, 0, 0), (-4, -4, 4), (0, 4, 4), (-4, 4, 4)] threeWings none

/-- the mesh, linked in another order -/
def wingsTurnedMesh : Mesh Q3 Nat := { wingsMesh with ring := ringOf wingsTurned }

theorem wingsMesh_ok : wingsMesh.Valid ∧ wingsMesh.RingOK ∧ wingsMesh.NoIsolated ∧ wingsMesh.tris = threeWings :=
  mk_ok none (by decide +kernel)

theorem wingsTurnedMesh_rings : wingsTurnedMesh.RingOK := by
  have h := checkRing_sound (P := Q3) (D := Nat)
    (pts := [(0, 0, 0), (4, 0, 0), (4, 4, 0), (-4, 0, 0), (-4, -4, 4), (0, 4, 4), (-4, 4, 4)]) (T := threeWings) (by decide)
    (R := ringOf wingsTurned) (by decide +kernel) (by decide +kernel) ?_ none
  · exact h
  · intro v h
    refine pointEdge_none _ _ fun t ht => h t ?_
    revert t
    decide

theorem wings_needs (sch : Scheme) : sch.Needs wingsMesh ∧ sch.Needs wingsTurnedMesh := by
  obtain ⟨h1, h2, h3, -⟩ := wingsMesh_ok
  have hs : SameButRings wingsMesh wingsTurnedMesh := rfl
  exact ⟨⟨h1, fun _ => h2, fun _ => h3⟩, hs.valid h1, fun _ => wingsTurnedMesh_rings, fun _ => hs.noIsolated h3⟩

/-- C99 does not hold for Butterfly without the assumption on the boundary: where three pieces of a mesh hang together at one
point, the links decide which of the other pieces the new points of the border are computed from (the rule reads the edge
next to a border edge without looking whether there is a triangle between them). -/
theorem C99_touching_refuted : SameButRings wingsMesh wingsTurnedMesh ∧ Scheme.butterfly.Needs wingsMesh ∧
    Scheme.butterfly.Needs wingsTurnedMesh ∧ ∀ lib lib' : QELib,
      ¬ SameOutcome (cellUpdate .butterfly lib cos0 Filt.new wingsMesh).1 (cellUpdate .butterfly lib' cos0 Filt.new wingsTurnedMesh).1 := by
  refine ⟨rfl, (wings_needs _).1, (wings_needs _).2, fun lib lib' h => ?_⟩
  have key : ∀ (lib : QELib) (m : Mesh Q3 Nat), (cellUpdate .butterfly lib cos0 Filt.new m).1.toOption.map (fun o => o.points) =
      ((cellGenerate .butterfly cos0 m ⟨Filt.new, Mesh.empty⟩).1.toOption.map fun _ =>
        (cellGenerate .butterfly cos0 m ⟨Filt.new, Mesh.empty⟩).2.out.points) := by
    intro lib m
    unfold cellUpdate runFilter
    rcases cellGenerate .butterfly cos0 m ⟨Filt.new, Mesh.empty⟩ with ⟨_ | _, s⟩ <;> rfl
  have hp : ∀ r r' : Except Fail (Mesh Q3 Nat), SameOutcome r r' → r'.toOption.map (fun o => o.points) = r.toOption.map (fun o => o.points) := by
    intro r r' h
    have := congrArg (fun x : Except Fail (Mesh Q3 Nat) => x.toOption.map fun o => o.points) h
    rcases r with e | r <;> rcases r' with e' | r' <;> exact this
  have h1 := hp _ _ h
  rw [key, key] at h1
  revert h1
  decide +kernel

/-- all other filters do agree on these meshes -/
example (sch : Scheme) (hs : sch ≠ .butterfly) (lib lib' : QELib) :
    ∃ out out' f' g', cellUpdate sch lib cos0 Filt.new wingsMesh = (.ok out, f') ∧
      cellUpdate sch lib' cos0 Filt.new wingsTurnedMesh = (.ok out', g') ∧ SameButRings out out' := by
  obtain ⟨out, out', f', g', h1, h2, h3, -⟩ := C99_cell_partial cos0 (m := wingsMesh) (m' := wingsTurnedMesh) rfl (wings_needs sch).1
    (wings_needs sch).2 (fun h => absurd h hs) lib lib' (SameSettings.refl Filt.new) (selOK_nil _)
    (fun _ => by decide +kernel)
  exact ⟨out, out', f', g', h1, h2, h3⟩

/-- the patch as linked by some lawful library -/
noncomputable def patchRelinked : Mesh Q3 Nat :=
  { patchMesh with ring := someLib.link patchMesh.edges patchMesh.left patchMesh.cells }

theorem patchRelinked_same : SameButRings patchMesh patchRelinked := SameButRings.withRing _ _

theorem patchRelinked_needs (sch : Scheme) : sch.Needs patchRelinked := by
  have hs := patchRelinked_same
  exact ⟨hs.valid patchMesh_ok.1, fun _ => someLib_lawful _ _ _ patchMesh_ok.1, fun _ => hs.noIsolated patchMesh_ok.2.2.1⟩

/-- an open mesh, all schemes, with and without selection, on an object used before -/
example (sch : Scheme) (lib lib' : QELib) :
    ∃ out out' f' g', cellUpdate sch lib cos0 (usedFilt [1, 3]) patchMesh = (.ok out, f') ∧
      cellUpdate sch lib' cos0 (usedFilt [1, 3]) patchRelinked = (.ok out', g') ∧ SameButRings out out' ∧ SameSettings f' g' :=
  C99_cell_partial cos0 patchRelinked_same (patchMesh_needs sch) (patchRelinked_needs sch) (fun _ => patchMesh_simple) lib lib' (SameSettings.refl _)
    patchMesh_sel (fun _ => by decide +kernel)

example (sch : EdgeScheme) (lib lib' : QELib) :
    ∃ out out' f' g', edgeUpdate sch lib cos0 ⟨[], [some (0, 1), some (2, 0)], false, fun _ => none⟩ patchMesh = (.ok out, f') ∧
      edgeUpdate sch lib' cos0 ⟨[], [some (0, 1), some (2, 0)], false, fun _ => some 2⟩ patchRelinked = (.ok out', g') ∧
      SameButRings out out' ∧ SameSettings f' g' :=
  C99_edge_partial cos0 patchRelinked_same (patchMesh_needs _) (patchRelinked_needs _) (fun _ => patchMesh_simple) lib lib' ⟨rfl, rfl, rfl⟩
    (by
      intro e he
      simp only [List.mem_cons, Option.some.injEq, List.not_mem_nil, or_false] at he
      rcases he with rfl | rfl <;> (unfold Mesh.IsEdge; decide +kernel))

/-- three levels of the Butterfly filter under two libraries -/
example : ∃ out out', (iterUpdate .butterfly someLib cos0 ⟨[1, 3], 3, []⟩ patchMesh).1 = .ok out ∧
    (iterUpdate .butterfly checkedLib cos0 ⟨[1, 3], 3, []⟩ patchRelinked).1 = .ok out' ∧ SameButRings out out' :=
  C99_iterative_partial cos0 (fun _ => someLib_lawful) (fun _ => checkedLib_lawful) patchRelinked_same (patchMesh_needs _) (patchRelinked_needs _)
    (fun _ => patchMesh_simple) rfl rfl patchMesh_sel (fun h => by cases h)

/-- adaptive Loop refinement under two libraries; `checkedLib` can be computed with: the run ends -/
example (n : Nat) : (condGenerate someLib (condEdgeUpd .loop someLib cos0) (some (lengthCompute taxi 4)) n ⟨Filt.new, []⟩ patchRelinked = none ∧
      condGenerate checkedLib (condEdgeUpd .loop checkedLib cos0) (some (lengthCompute taxi 4)) n ⟨Filt.new, []⟩ patchMesh = none) ∨
    ∃ out out' d d', condGenerate someLib (condEdgeUpd .loop someLib cos0) (some (lengthCompute taxi 4)) n ⟨Filt.new, []⟩ patchRelinked =
        some (.ok out, d) ∧
      condGenerate checkedLib (condEdgeUpd .loop checkedLib cos0) (some (lengthCompute taxi 4)) n ⟨Filt.new, []⟩ patchMesh =
        some (.ok out', d') ∧ SameButRings out out' :=
  C99_conditional_length_partial cos0 (fun _ => someLib_lawful) (fun _ => checkedLib_lawful) patchRelinked_same.symm
    (patchRelinked_needs .loop).valid (fun _ => (patchRelinked_needs .loop).noIsolated rfl) (fun h => by cases h) _ _ n ⟨rfl, rfl, rfl⟩

example (sch : Scheme) : (condGenerate someLib (condCellUpd sch someLib cos0) (some (areaCompute shadow 6)) 3 ⟨usedFilt [1], [7]⟩
      patchRelinked = none ∧
      condGenerate checkedLib (condCellUpd sch checkedLib cos0) (some (areaCompute shadow 6)) 3 ⟨usedFilt [], []⟩ patchMesh = none) ∨
    ∃ out out' d d', condGenerate someLib (condCellUpd sch someLib cos0) (some (areaCompute shadow 6)) 3 ⟨usedFilt [1], [7]⟩ patchRelinked =
        some (.ok out, d) ∧
      condGenerate checkedLib (condCellUpd sch checkedLib cos0) (some (areaCompute shadow 6)) 3 ⟨usedFilt [], []⟩ patchMesh =
        some (.ok out', d') ∧ SameButRings out out' :=
  C99_conditional_area_partial cos0 (fun _ => someLib_lawful) (fun _ => checkedLib_lawful) patchRelinked_same.symm
    (patchRelinked_needs .loop).valid (fun _ => (patchRelinked_needs .loop).noIsolated rfl) (fun _ => patchMesh_simple) _ _ 3
    (fun _ => by decide +kernel) ⟨rfl, rfl, rfl⟩

/-- meshes that are not valid, objects in whatever state -/
example (lib lib' : QELib) (f : Filt) (r : Ring) (m : Mesh Q3 Nat) : SameOutcome (cellUpdate .sqrt3 lib cos0 f m).1
    (cellUpdate .sqrt3 lib' cos0 f { m with ring := r }).1 := (C99_unread (.inr rfl) cos0 (SameButRings.withRing m r) lib lib' f).1

end Verif
