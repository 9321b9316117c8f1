import Verif.Spec.Coords
/-
The same surface listed in different ways: other point ids, other cell ids, cells listed from another corner on.
-/
namespace Verif
variable {P D : Type}

/-- `m'` has the triangles of `m` under other point ids, at the same places.  Nothing is said about the order and the ids
of the cells, nor at which corner the list of a cell begins, nor about points that belong to no triangle. -/
structure SameSurface (ρ : PId → PId) (m m' : Mesh P D) : Prop where
  tri : ∀ x y z, HasTri m.tris x y z → HasTri m'.tris (ρ x) (ρ y) (ρ z)
  onto : ∀ x' y' z', HasTri m'.tris x' y' z' → ∃ x y z, HasTri m.tris x y z ∧ ρ x = x' ∧ ρ y = y' ∧ ρ z = z'
  inj : ∀ t ∈ m.tris, ∀ t' ∈ m.tris, ∀ v ∈ t.verts, ∀ w ∈ t'.verts, ρ v = ρ w → v = w
  pos : ∀ t ∈ m.tris, ∀ v ∈ t.verts, m'.pos (ρ v) = m.pos v

/-- `m'` consists of the triangles of `m`, under other point ids and at the same places, and of other triangles that have no
corner in common with these -/
structure PieceOf (ρ : PId → PId) (m m' : Mesh P D) : Prop where
  tri : ∀ x y z, HasTri m.tris x y z → HasTri m'.tris (ρ x) (ρ y) (ρ z)
  star : ∀ x y z y' z', HasTri m.tris x y z → HasTri m'.tris (ρ x) y' z' → ∃ u w, HasTri m.tris x u w ∧ ρ u = y' ∧ ρ w = z'
  inj : ∀ t ∈ m.tris, ∀ t' ∈ m.tris, ∀ v ∈ t.verts, ∀ w ∈ t'.verts, ρ v = ρ w → v = w
  pos : ∀ t ∈ m.tris, ∀ v ∈ t.verts, m'.pos (ρ v) = m.pos v

/-- a triangle of `m'` that is one of `m` -/
def InPiece (ρ : PId → PId) (m : Mesh P D) (t : Tri) : Prop := ∃ a b c, HasTri m.tris a b c ∧ t = (ρ a, ρ b, ρ c)

/-- `m` consists of `m₁` and `m₂`, which have no corner in common -/
structure TwoPieces (ρ₁ ρ₂ : PId → PId) (m₁ m₂ m : Mesh P D) : Prop where
  fst : PieceOf ρ₁ m₁ m
  snd : PieceOf ρ₂ m₂ m
  all : ∀ t ∈ m.tris, InPiece ρ₁ m₁ t ∨ InPiece ρ₂ m₂ t
  apart : ∀ t ∈ m.tris, ¬ (InPiece ρ₁ m₁ t ∧ InPiece ρ₂ m₂ t)

/-- no triangle of the piece is among `T` -/
def Spares (ρ : PId → PId) (m : Mesh P D) (T : List Tri) : Prop :=
  ∀ x y z, HasTri m.tris x y z → ¬ HasTri T (ρ x) (ρ y) (ρ z)

/-- the lists select the same triangles -/
def SameSelection (ρ : PId → PId) (m : Mesh P D) (sel : List CId) (m' : Mesh P D) (sel' : List CId) : Prop :=
  ∀ x y z, HasTri m.tris x y z → (HasTri (m'.selected sel') (ρ x) (ρ y) (ρ z) ↔ HasTri (m.selected sel) x y z)

/-- the lists of corresponding cells begin at the same corner -/
def SameStarts (ρ : PId → PId) (m m' : Mesh P D) : Prop := ∀ t ∈ m.tris, t.rename ρ ∈ m'.tris

/-- the lists contain the same edges, in one direction or the other -/
def SameSplits (ρ : PId → PId) (m : Mesh P D) (sel : List (Option Edge)) (m' : Mesh P D) (sel' : List (Option Edge)) : Prop :=
  ∀ e, m.IsEdge e → ((e.rename ρ ∈ m'.selectedEdges sel' ∨ (e.rename ρ).sym ∈ m'.selectedEdges sel') ↔
    (e ∈ m.selectedEdges sel ∨ e.sym ∈ m.selectedEdges sel))

/-- the edges of a triangle that are in a list, in one direction or the other -/
def Tri.splitEdges (es : List Edge) (t : Tri) : List Edge := t.darts.filter fun e => decide (e ∈ es ∨ e.sym ∈ es)

/-- the list has no edge of the piece, in neither direction -/
def SparesEdges (ρ : PId → PId) (m : Mesh P D) (es : List Edge) : Prop := ∀ e, m.IsEdge e → e.rename ρ ∉ es

end Verif
