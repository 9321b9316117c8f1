import Verif.Proofs.NumberingRuns
import Verif.Properties.Numbering
import Verif.Properties.CondLoopMirror
import Verif.Properties.Affine
import Verif.Properties.Conditional
/-
C45 over many runs: levels and rounds on meshes that differ in the numbering of their points.
-/
namespace Verif
set_option linter.unusedSectionVars false
variable {K P D : Type} [Field K] [AddCommGroup P] [Module K P] {lib lib' : QELib} {m m' : Mesh P D}

/-- C45: where the boundary does not touch itself the edges of the two meshes are linked in the same cyclic order (`C45_numbering` and
`C45_numbering_edge` need that for Butterfly), whatever library linked them. -/
theorem C45_simple_rings {ρ : PId → PId} (R : Renamed ρ m m') (hv : m.Valid) (hv' : m'.Valid) (hr : m.RingOK) (hr' : m'.RingOK)
    (hsb : m.SimpleBoundary) : RingRenamed ρ m m' := R.rings hv hv' hr hr' hsb

/-- C45 for the iterative filter: after all its levels the meshes still differ in the numbering only, the points of the input
correspond as before, and so does the data - also for Loop, whose objects are made anew for each level. -/
theorem C45_iterative {sch : Scheme} {ρ : PId → PId} (cosn : Nat → K) (hl : sch = .loop ∨ sch = .butterfly → lib.Lawful)
    (hl' : sch = .loop ∨ sch = .butterfly → lib'.Lawful) (R : Renamed ρ m m') (hn : sch.Needs m) (hn' : sch.Needs m')
    (hf : sch = .butterfly → m.SimpleBoundary) {f g : Iter} (hc : g.cells = f.cells) (hL : g.levels = f.levels) (hsel : m.SelOK f.cells)
    (hid : sch.IdsLeft (max 1 f.levels) m f.cells) (hid' : sch.IdsLeft (max 1 f.levels) m' f.cells) :
    ∃ out out' ρ', (iterUpdate sch lib cosn f m).1 = .ok out ∧ (iterUpdate sch lib' cosn g m').1 = .ok out' ∧
      Renamed ρ' out out' ∧ (∀ v, v < m.points.length → ρ' v = ρ v) ∧ out'.coordTris = out.coordTris ∧
      ((∀ k, m'.dataAt k = m.dataAt k) → ∀ k, out'.dataAt k = out.dataAt k) := by
  have hLo : levelsOf f.levels = max 1 f.levels := by unfold levelsOf; split <;> omega
  obtain ⟨o, o', s, ρ', h1, h2, h3, h4, -, h5⟩ := manyLevels_rename cosn hl hl' (max 1 f.levels) R hn hn' hf hsel hid hid'
  refine ⟨o, o', ρ', ?_, ?_, h3, h4, h3.coordTris, h5⟩
  · rw [iterUpdate_eq, hLo, h1]; rfl
  · rw [iterUpdate_eq, hc, hL, hLo, h2]; rfl

section conditional
variable [LinearOrder K]

/-- C45 for the conditional filter with a cell filter other than Loop and the area criterion: both runs go on, or both end, with
meshes that differ in the numbering only - after however many rounds and whatever the objects did before. -/
theorem C45_conditional_area {sch : Scheme} {ρ : PId → PId} (hs : sch ≠ .loop) (cosn : Nat → K) (hl : sch = .butterfly → lib.Lawful)
    (hl' : sch = .butterfly → lib'.Lawful) (R : Renamed ρ m m') (hv : m.Valid) (hv' : m'.Valid)
    (hf : sch = .butterfly → m.SimpleBoundary) (area : P → P → P → K) (A : K) (n : Nat)
    (hmax : sch = .sqrt3 → max m.points.length m'.points.length + 4 ^ n * m.cells.length ≤ idMax) (c c' : Cond Filt CId) :
    (condGenerate lib (condCellUpd sch lib cosn) (some (areaCompute area A)) n c m = none ∧
      condGenerate lib' (condCellUpd sch lib' cosn) (some (areaCompute area A)) n c' m' = none) ∨
    ∃ out out' d d' ρ', condGenerate lib (condCellUpd sch lib cosn) (some (areaCompute area A)) n c m = some (.ok out, d) ∧
      condGenerate lib' (condCellUpd sch lib' cosn) (some (areaCompute area A)) n c' m' = some (.ok out', d') ∧
      Renamed ρ' out out' ∧ (∀ v, v < m.points.length → ρ' v = ρ v) ∧ out'.coordTris = out.coordTris := by
  have hl1 : sch = .loop ∨ sch = .butterfly → lib.Lawful := fun h => h.elim (fun h => absurd h hs) hl
  have hl2 : sch = .loop ∨ sch = .butterfly → lib'.Lawful := fun h => h.elim (fun h => absurd h hs) hl'
  have hcl : m'.cells.length = m.cells.length := by rw [R.cells, List.length_map]
  obtain ⟨l, h1, h2, h3⟩ := condArea_start hv hl1 (fun h => absurd h hs)
    (fun h => Nat.le_trans (Nat.add_le_add_right (Nat.le_max_left _ _) _) (hmax h)) (condCellUpd sch lib cosn) area A c
  obtain ⟨l', k1, k2, k3⟩ := condArea_start hv' hl2 (fun h => absurd h hs)
    (fun h => by rw [hcl]; exact Nat.le_trans (Nat.add_le_add_right (Nat.le_max_right _ _) _) (hmax h))
    (condCellUpd sch lib' cosn) area A c'
  have hcp := copyGeometry_rename R hv hv' lib lib'
  have hll : l' = l := by
    rw [areaCompute_rename hcp (copyGeometry_valid lib hv) (copyGeometry_valid lib' hv') area A c.sel c'.sel, h1] at k1
    cases k1; rfl
  subst hll
  rw [h3, k3]
  rcases condArea_rename cosn hs hl1 hl2 area A n hcp h2 k2 fun h => copyGeometry_simple lib hv (hf h) with
    h | ⟨out, out', d, d', ρ', i1, i2, i3, i4⟩
  · exact .inl h
  · exact .inr ⟨out, out', d, d', ρ', i1, i2, i3, fun v h => i4 v (by rw [copyGeometry_points lib hv]; exact h), i3.coordTris⟩

/-- C45 for the conditional filter with an edge filter and the length criterion, all three schemes. -/
theorem C45_conditional_length {sch : EdgeScheme} {ρ : PId → PId} (cosn : Nat → K) (hl : sch = .loop ∨ sch = .butterfly → lib.Lawful)
    (hl' : sch = .loop ∨ sch = .butterfly → lib'.Lawful) (R : Renamed ρ m m') (hE : m'.edges = m.edges.map (Edge.rename ρ))
    (hv : m.Valid) (hv' : m'.Valid) (hi : sch = .loop → m.NoIsolated ∧ m'.NoIsolated)
    (hf : sch = .butterfly → m.SimpleBoundary) (len : P → P → K) (L : K) (n : Nat) (c c' : Cond Filt (Option Edge)) :
    (condGenerate lib (condEdgeUpd sch lib cosn) (some (lengthCompute len L)) n c m = none ∧
      condGenerate lib' (condEdgeUpd sch lib' cosn) (some (lengthCompute len L)) n c' m' = none) ∨
    ∃ out out' d d' ρ', condGenerate lib (condEdgeUpd sch lib cosn) (some (lengthCompute len L)) n c m = some (.ok out, d) ∧
      condGenerate lib' (condEdgeUpd sch lib' cosn) (some (lengthCompute len L)) n c' m' = some (.ok out', d') ∧
      Renamed ρ' out out' ∧ (∀ v, v < m.points.length → ρ' v = ρ v) ∧ out'.coordTris = out.coordTris := by
  obtain ⟨l, h1, h2, h3⟩ := condLength_start (n := n) hv hl (fun h => (hi h).1) (condEdgeUpd sch lib cosn) len L c
  obtain ⟨l', k1, k2, k3⟩ := condLength_start (n := n) hv' hl' (fun h => (hi h).2) (condEdgeUpd sch lib' cosn) len L c'
  have hcp := copyGeometry_rename R hv hv' lib lib'
  obtain ⟨l1, q1, q2⟩ := lengthCompute_rename hcp (show (copyGeometry lib' m').edges = (copyGeometry lib m).edges.map (Edge.rename ρ) from hE)
    (copyGeometry_valid lib hv) (copyGeometry_valid lib' hv') len L c.sel c'.sel
  rw [h1] at q1; rw [k1] at q2
  cases q1; cases q2
  rw [h3, k3]
  rcases condLength_rename cosn hl hl' len L n hcp h2 k2 fun h => copyGeometry_simple lib hv (hf (toScheme_butterfly.1 h)) with
    h | ⟨out, out', d, d', ρ', i1, i2, i3, i4⟩
  · exact .inl h
  · exact .inr ⟨out, out', d, d', ρ', i1, i2, i3, fun v h => i4 v (by rw [copyGeometry_points lib hv]; exact h), i3.coordTris⟩

end conditional

/-- `cutSquare` with points 0 and 3 exchanged -/
def cutSquareSwap : Mesh Q3 Nat := mk [(-4, 4, 0), (4, -4, 0), (4, 4, 0), (-4, -4, 0)] [(3, 1, 2), (2, 0, 3)] none

theorem cutSquareSwap_ok : cutSquareSwap.Valid ∧ cutSquareSwap.RingOK ∧ cutSquareSwap.NoIsolated ∧
    cutSquareSwap.tris = [(3, 1, 2), (2, 0, 3)] := mk_ok _ (by decide)

def swap03 (v : PId) : PId := if v = 0 then 3 else if v = 3 then 0 else v

theorem cutSquareSwap_renamed : Renamed swap03 cutSquare cutSquareSwap := by
  refine ⟨by decide, ?_, ?_⟩
  · rw [cutSquare_ok.2.2.2]; decide
  · rw [cutSquare_ok.2.2.2]; decide +kernel

@[instance_reducible] def tripleDecEq : DecidableEq (Option Q3 × Option Q3 × Option Q3) := inferInstance
attribute [local instance] tripleDecEq

/-- the triangles that a conditional run ends with -/
def condTriangles (r : Option (Except Fail (Mesh Q3 Nat) × Cond Filt CId)) : Option (List (Option Q3 × Option Q3 × Option Q3)) :=
  match r with
  | some (.ok o, _) => some o.coordTris
  | _ => none

/-- C45 leaves out the conditional filter with the Loop cell filter, and has to: exchanging the numbers of two points of a square
changes what the filter returns.  From the second round on the ids of the cells to refine are taken for the ids of the points
to smooth (C42). -/
theorem C45_conditional_loop_excluded : ∃ (lib : QELib) (cosn : Nat → ℚ) (m m' out out' : Mesh Q3 Nat) (c c' : Cond Filt CId) (ρ : PId → PId),
    lib.Lawful ∧ cosn 3 = -1 / 2 ∧ cosn 4 = 0 ∧ cosn 6 = 1 / 2 ∧ Scheme.loop.Needs m ∧ Scheme.loop.Needs m' ∧ Renamed ρ m m' ∧
    condGenerate lib (condCellUpd .loop lib cosn) (some (areaCompute shadow 12)) 2 ⟨Filt.new, []⟩ m = some (.ok out, c) ∧
    condGenerate lib (condCellUpd .loop lib cosn) (some (areaCompute shadow 12)) 2 ⟨Filt.new, []⟩ m' = some (.ok out', c') ∧
    out'.coordTris ≠ out.coordTris := by
  have k1 : condTriangles (condGenerate checkedLib (condCellUpd .loop checkedLib cosHex) (some (areaCompute shadow 12)) 2
      ⟨Filt.new, []⟩ cutSquare) ≠ none := by decide +kernel
  have k2 : condTriangles (condGenerate checkedLib (condCellUpd .loop checkedLib cosHex) (some (areaCompute shadow 12)) 2
      ⟨Filt.new, []⟩ cutSquareSwap) ≠ none := by decide +kernel
  have k3 : condTriangles (condGenerate checkedLib (condCellUpd .loop checkedLib cosHex) (some (areaCompute shadow 12)) 2
      ⟨Filt.new, []⟩ cutSquareSwap) ≠ condTriangles (condGenerate checkedLib (condCellUpd .loop checkedLib cosHex)
        (some (areaCompute shadow 12)) 2 ⟨Filt.new, []⟩ cutSquare) := by decide +kernel
  rcases h1 : condGenerate checkedLib (condCellUpd .loop checkedLib cosHex) (some (areaCompute shadow 12)) 2
      ⟨Filt.new, []⟩ cutSquare with _ | ⟨_ | out, c⟩
  · rw [h1] at k1; exact absurd rfl k1
  · rw [h1] at k1; exact absurd rfl k1
  rcases h2 : condGenerate checkedLib (condCellUpd .loop checkedLib cosHex) (some (areaCompute shadow 12)) 2
      ⟨Filt.new, []⟩ cutSquareSwap with _ | ⟨_ | out', c'⟩
  · rw [h2] at k2; exact absurd rfl k2
  · rw [h2] at k2; exact absurd rfl k2
  rw [h1, h2] at k3
  exact ⟨checkedLib, cosHex, cutSquare, cutSquareSwap, out, out', c, c', swap03, checkedLib_lawful, rfl, rfl, rfl,
    ⟨cutSquare_ok.1, fun _ => cutSquare_ok.2.1, fun _ => cutSquare_ok.2.2.1⟩,
    ⟨cutSquareSwap_ok.1, fun _ => cutSquareSwap_ok.2.1, fun _ => cutSquareSwap_ok.2.2.1⟩, cutSquareSwap_renamed, h1, h2,
    fun h => k3 (congrArg some h)⟩

/-- `patchMesh`, an open mesh, with points 0 and 2 exchanged -/
def patchSwap : Mesh Q3 Nat :=
  mk [(0, 4, 0), (4, 0, 0), (0, 0, 0), (2, -4, 0), (4, 4, 1), (-4, 2, 0)] [(2, 1, 0), (1, 2, 3), (0, 1, 4), (2, 0, 5)]
    (some [(0, 7), (2, 9)])

theorem patchSwap_ok : patchSwap.Valid ∧ patchSwap.RingOK ∧ patchSwap.NoIsolated ∧
    patchSwap.tris = [(2, 1, 0), (1, 2, 3), (0, 1, 4), (2, 0, 5)] := mk_ok _ (by decide)

theorem patchSwap_needs (sch : Scheme) : sch.Needs patchSwap :=
  ⟨patchSwap_ok.1, fun _ => patchSwap_ok.2.1, fun _ => patchSwap_ok.2.2.1⟩

theorem patchSwap_renamed : Renamed swap02 patchMesh patchSwap := by
  refine ⟨by decide, ?_, ?_⟩
  · rw [patchMesh_ok.2.2.2]; decide
  · rw [patchMesh_ok.2.2.2]; decide +kernel

example : RingRenamed swap02 patchMesh patchSwap :=
  C45_simple_rings patchSwap_renamed patchMesh_ok.1 patchSwap_ok.1 patchMesh_ok.2.1 patchSwap_ok.2.1 patchMesh_simple

/-- an open mesh with a selection, two levels, all schemes, two libraries -/
example (sch : Scheme) : ∃ out out' ρ', (iterUpdate sch someLib cos0 ⟨[1, 3], 2, []⟩ patchMesh).1 = .ok out ∧
    (iterUpdate sch checkedLib cos0 ⟨[1, 3], 2, []⟩ patchSwap).1 = .ok out' ∧ Renamed ρ' out out' ∧ ∀ k, out'.dataAt k = out.dataAt k := by
  obtain ⟨out, out', ρ', h1, h2, h3, -, -, h4⟩ := C45_iterative cos0 (fun _ => someLib_lawful) (fun _ => checkedLib_lawful)
    patchSwap_renamed (patchMesh_needs sch) (patchSwap_needs sch) (fun _ => patchMesh_simple) (f := ⟨[1, 3], 2, []⟩)
    (g := ⟨[1, 3], 2, []⟩) rfl rfl patchMesh_sel (fun _ => by decide +kernel) (fun _ => by decide +kernel)
  exact ⟨out, out', ρ', h1, h2, h3, h4 fun _ => rfl⟩

/-- adaptive refinement of the open mesh; however many rounds -/
example (n : Nat) : (condGenerate someLib (condCellUpd .butterfly someLib cos0) (some (areaCompute shadow 6)) n ⟨usedFilt [1], [7]⟩
      patchMesh = none ∧
      condGenerate checkedLib (condCellUpd .butterfly checkedLib cos0) (some (areaCompute shadow 6)) n ⟨Filt.new, []⟩ patchSwap = none) ∨
    ∃ out out' d d' ρ', condGenerate someLib (condCellUpd .butterfly someLib cos0) (some (areaCompute shadow 6)) n ⟨usedFilt [1], [7]⟩
        patchMesh = some (.ok out, d) ∧
      condGenerate checkedLib (condCellUpd .butterfly checkedLib cos0) (some (areaCompute shadow 6)) n ⟨Filt.new, []⟩ patchSwap =
        some (.ok out', d') ∧ Renamed ρ' out out' ∧ (∀ v, v < patchMesh.points.length → ρ' v = swap02 v) ∧ out'.coordTris = out.coordTris :=
  C45_conditional_area (by decide) cos0 (fun _ => someLib_lawful) (fun _ => checkedLib_lawful) patchSwap_renamed patchMesh_ok.1
    patchSwap_ok.1 (fun _ => patchMesh_simple) _ _ n (fun h => by cases h) _ _

example (sch : EdgeScheme) (n : Nat) :
    (condGenerate someLib (condEdgeUpd sch someLib cos0) (some (lengthCompute taxi 4)) n ⟨Filt.new, []⟩ patchMesh = none ∧
      condGenerate checkedLib (condEdgeUpd sch checkedLib cos0) (some (lengthCompute taxi 4)) n ⟨usedFilt [], [none]⟩ patchSwap = none) ∨
    ∃ out out' d d' ρ', condGenerate someLib (condEdgeUpd sch someLib cos0) (some (lengthCompute taxi 4)) n ⟨Filt.new, []⟩ patchMesh =
        some (.ok out, d) ∧
      condGenerate checkedLib (condEdgeUpd sch checkedLib cos0) (some (lengthCompute taxi 4)) n ⟨usedFilt [], [none]⟩ patchSwap =
        some (.ok out', d') ∧ Renamed ρ' out out' ∧ (∀ v, v < patchMesh.points.length → ρ' v = swap02 v) ∧ out'.coordTris = out.coordTris :=
  C45_conditional_length cos0 (fun _ => someLib_lawful) (fun _ => checkedLib_lawful) patchSwap_renamed (by decide) patchMesh_ok.1
    patchSwap_ok.1 (fun _ => ⟨patchMesh_ok.2.2.1, patchSwap_ok.2.2.1⟩) (fun _ => patchMesh_simple) _ _ n _ _

end Verif
