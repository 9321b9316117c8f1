import Verif.Proofs.Check
import Verif.Proofs.Lawful
import Verif.Spec.Run
import Mathlib.Algebra.Field.Rat
import Mathlib.Algebra.Module.Prod
import Mathlib.Algebra.Algebra.Rat
/-
Small meshes used to show that the hypotheses of the theorems can be met.
-/
namespace Verif

abbrev Q3 := ℚ × ℚ × ℚ

/-- a tetrahedron with data on all four cells -/
def tetraMesh : Mesh Q3 Nat :=
  mk [(0, 0, 0), (4, 0, 0), (0, 4, 0), (0, 0, 4)] tetra (some [(0, 10), (1, 11), (2, 12), (3, 13)])

/-- a triangle with a neighbour across each edge; data on two of the cells -/
def patchMesh : Mesh Q3 Nat :=
  mk [(0, 0, 0), (4, 0, 0), (0, 4, 0), (2, -4, 0), (4, 4, 1), (-4, 2, 0)] patch (some [(0, 7), (2, 9)])

theorem tetraMesh_ok : tetraMesh.Valid ∧ tetraMesh.RingOK ∧ tetraMesh.NoIsolated ∧ tetraMesh.tris = tetra :=
  mk_ok _ (by decide)

theorem patchMesh_ok : patchMesh.Valid ∧ patchMesh.RingOK ∧ patchMesh.NoIsolated ∧ patchMesh.tris = patch :=
  mk_ok _ (by decide)

theorem tetraMesh_needs (sch : Scheme) : sch.Needs tetraMesh :=
  ⟨tetraMesh_ok.1, fun _ => tetraMesh_ok.2.1, fun _ => tetraMesh_ok.2.2.1⟩

theorem patchMesh_needs (sch : Scheme) : sch.Needs patchMesh :=
  ⟨patchMesh_ok.1, fun _ => patchMesh_ok.2.1, fun _ => patchMesh_ok.2.2.1⟩

/-- `patchMesh` with its point ids moved up by one and isolated points at both ends -/
def isoMesh : Mesh Q3 Nat :=
  mk [(9, 9, 9), (0, 0, 0), (4, 0, 0), (0, 4, 0), (2, -4, 0), (4, 4, 1), (-4, 2, 0), (8, 8, 8)]
    [(1, 2, 3), (2, 1, 4), (3, 2, 5), (1, 3, 6)] (some [(0, 7), (2, 9)])

theorem isoMesh_ok : isoMesh.Valid ∧ isoMesh.RingOK ∧ isoMesh.tris = [(1, 2, 3), (2, 1, 4), (3, 2, 5), (1, 3, 6)] :=
  mk_ok_iso _ (by decide)

theorem tetraMesh_sel : tetraMesh.SelOK [2, 0, 2] := by unfold Mesh.SelOK; decide
theorem patchMesh_sel : patchMesh.SelOK [1, 3] := by unfold Mesh.SelOK; decide
theorem selOK_nil {P D : Type} (m : Mesh P D) : m.SelOK [] := by intro k hk; cases hk

/-- a filter object with some history and a selection -/
def usedFilt (sel : List CId) : Filt := ⟨sel, [], false, fun e => if e = (0, 1) then some 3 else none⟩

/-- stands for the cosine in statements about samples -/
def cos0 : Nat → ℚ := fun _ => 0

end Verif
