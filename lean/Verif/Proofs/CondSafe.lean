import Verif.Proofs.Conditional
import Verif.Properties.Conditional
import Verif.Properties.Topology
import Verif.Properties.Sqrt3
/-
Every iteration of the conditional filter on a valid mesh succeeds.
-/
namespace Verif
set_option linter.unusedSectionVars false
variable {K P D : Type} [Field K] [Zero P] [Add P] [SMul K P]

/-- a loop every iteration of which succeeds ends normally or has not ended -/
theorem condLoop_safe {S ι : Type} {upd : S → List ι → Mesh P D → Except Fail (Mesh P D) × S}
    {crit : Mesh P D → Prog (List ι) Unit} (I : Nat → List ι → Mesh P D → Prop)
    (hstep : ∀ n s sel cur, I (n + 1) sel cur → sel ≠ [] → ∃ m s' sel', upd s sel cur = (.ok m, s') ∧
      crit m sel = (.ok (), sel') ∧ I n sel' m) {n : Nat} {c : Cond S ι} {cur : Mesh P D} (h : I n c.sel cur) :
    condLoop upd crit n c cur = none ∨
      ∃ out c' k sel', condLoop upd crit n c cur = some (.ok out, c') ∧ I k sel' out := by
  induction n generalizing c cur with
  | zero =>
    by_cases hs : c.sel = []
    · exact Or.inr ⟨cur, c, 0, c.sel, condLoop_done hs, h⟩
    · exact Or.inl (condLoop_zero hs)
  | succ n ih =>
    by_cases hs : c.sel = []
    · exact Or.inr ⟨cur, c, n + 1, c.sel, condLoop_done hs, h⟩
    · obtain ⟨m, s', sel', h1, h2, h3⟩ := hstep n c.inner c.sel cur h hs
      rw [condLoop_step hs h1 h2]
      exact ih (c := ⟨s', sel'⟩) h3

theorem closed_copyGeometry {inp : Mesh P D} (lib : QELib) (h : inp.Valid) : (copyGeometry lib inp).Closed ↔ inp.Closed := by
  unfold Mesh.Closed Mesh.IsBoundary
  rw [copyGeometry_tris lib h]

theorem cells_length_copyGeometry {inp : Mesh P D} (lib : QELib) (h : inp.Valid) :
    (copyGeometry lib inp).cells.length = inp.cells.length := by
  rw [copyGeometry_cells lib h, AMap.length_dense, List.length_map, h.tris_length]

theorem euler_copyGeometry {inp : Mesh P D} (lib : QELib) (h : inp.Valid) : (copyGeometry lib inp).euler = inp.euler := by
  unfold Mesh.euler
  rw [copyGeometry_points lib h, cells_length_copyGeometry lib h]
  rfl

/-- what all meshes in a run of the conditional filter have in common -/
structure Descendant (keep : Prop) (inp m : Mesh P D) : Prop where
  valid : m.Valid
  euler : m.euler = inp.euler
  closed : inp.Closed ↔ m.Closed
  kept : keep → ∀ v p, inp.pos v = some p → m.pos v = some p
  cells : inp.cells.length ≤ m.cells.length

theorem descendant_copy {inp : Mesh P D} (lib : QELib) (h : inp.Valid) (keep : Prop) :
    Descendant keep inp (copyGeometry lib inp) :=
  ⟨copyGeometry_valid lib h, euler_copyGeometry lib h, (closed_copyGeometry lib h).symm, fun _ v p hp => by
    simpa only [Mesh.pos, copyGeometry_points lib h] using hp, (cells_length_copyGeometry lib h).ge⟩

/-- a mesh all triangles of which are replaced has at least as many cells -/
theorem cells_le_of_children {cur m : Mesh P D} (hv : cur.Valid) (hm : m.Valid) {pt : Edge → Option PId}
    (h : m.tris = cur.tris.flatMap (Tri.children pt)) : cur.cells.length ≤ m.cells.length := by
  rw [← hv.tris_length, ← hm.tris_length, h]
  generalize cur.tris = T
  induction T with
  | nil => exact Nat.le_refl _
  | cons t T ih =>
    rw [List.flatMap_cons, List.length_append, List.length_cons]
    obtain ⟨d, hd, -⟩ := children_has_corner pt t (v := t.1) (by simp [Tri.verts])
    have := List.length_pos_of_mem hd
    omega

/-- one iteration with SquareThree -/
theorem condSqrt3_ok {lib : QELib} (cosn : Nat → K) {cur : Mesh P D} (hv : cur.Valid) {sel : List CId} (hne : sel ≠ [])
    (hsel : cur.SelOK sel) (hnd : sel.Nodup) (hmax : cur.points.length + cur.cells.length ≤ idMax) (f : Filt) :
    ∃ m f', condCellUpd .sqrt3 lib cosn f sel cur = (.ok m, f') ∧
      cellUpdate .sqrt3 lib cosn (f.setCells sel) cur = (.ok m, f') ∧ m.Valid ∧
      cur.points.length + (cur.selected sel).length ≤ idMax ∧
      m.points.length ≤ cur.points.length + cur.cells.length ∧ m.cells.length ≤ 3 * cur.cells.length ∧
      cur.cells.length ≤ m.cells.length := by
  have hlen : sel.length ≤ cur.cells.length := by
    rw [← List.length_map (f := Prod.fst) (as := cur.cells)]
    exact (List.subperm_of_subset hnd hsel).length_le
  have hs : (cur.selected sel).length ≤ cur.cells.length := by
    unfold Mesh.selected
    rw [if_neg (by simpa using hne)]
    exact (List.length_filterMap_le _ _).trans hlen
  have hm : cur.points.length + (cur.selected sel).length ≤ idMax := Nat.le_trans (Nat.add_le_add_left hs _) hmax
  obtain ⟨out, f', h, -, -, -, h1⟩ := C11_sqrt3_completes (f := f.setCells sel) lib cosn hv hsel hm
  obtain ⟨h2, h3⟩ := h1 hne
  have h4 := h2 sel hnd (fun k => Iff.rfl)
  refine ⟨out, f', h, h, (C13_sqrt3_valid hv (f := f.setCells sel) hsel hm h).1, hm, ?_, ?_, ?_⟩
  · rw [h3]; exact Nat.add_le_add_left hlen _
  · omega
  · omega

end Verif
