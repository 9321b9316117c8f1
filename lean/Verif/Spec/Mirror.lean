import Verif.Spec.Listing
import Verif.Spec.Affine
/-
The same surface with the opposite orientation; symmetric surfaces.
-/
namespace Verif
variable {P D : Type}

/-- `m'` has the triangles of `m` under other point ids, at the same places, each with its corners in the opposite order: the
surface seen from the other side. -/
structure OtherSide (ρ : PId → PId) (m m' : Mesh P D) : Prop where
  tri : ∀ x y z, HasTri m.tris x y z → HasTri m'.tris (ρ z) (ρ y) (ρ x)
  onto : ∀ x' y' z', HasTri m'.tris x' y' z' → ∃ x y z, HasTri m.tris x y z ∧ ρ z = x' ∧ ρ y = y' ∧ ρ x = z'
  inj : ∀ t ∈ m.tris, ∀ t' ∈ m.tris, ∀ v ∈ t.verts, ∀ w ∈ t'.verts, ρ v = ρ w → v = w
  pos : ∀ t ∈ m.tris, ∀ v ∈ t.verts, m'.pos (ρ v) = m.pos v

/-- the lists select the same triangles -/
def OtherSelection (ρ : PId → PId) (m : Mesh P D) (sel : List CId) (m' : Mesh P D) (sel' : List CId) : Prop :=
  ∀ x y z, HasTri m.tris x y z → (HasTri (m'.selected sel') (ρ z) (ρ y) (ρ x) ↔ HasTri (m.selected sel) x y z)

/-- The surface is mapped to itself by `φ`, which moves the corner `v` to the place of the corner `ρ v`: a rotation, say. -/
def Mesh.SymmetricBy (m : Mesh P D) (φ : P → P) (ρ : PId → PId) : Prop := SameSurface ρ (m.mapPoints φ) m

/-- The surface is mapped to itself by `φ`, with the orientation of the triangles reversed: a reflection, say. -/
def Mesh.MirroredBy (m : Mesh P D) (φ : P → P) (ρ : PId → PId) : Prop := OtherSide ρ (m.mapPoints φ) m

end Verif
