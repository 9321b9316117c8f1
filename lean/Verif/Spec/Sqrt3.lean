import Verif.Spec.FaceSplit
/-
Specification of the √3 split: a new point inside each subdivided triangle, joined to its corners; an edge between two
subdivided triangles is replaced by the edge that joins their new points.
-/
namespace Verif
variable {P D : Type}

/-- The triangle made at the directed edge `e` of a subdivided triangle with new point `v`; `σ e.sym` is the new point of
the triangle on the other side, if there is one and it is subdivided.  (The other half of a flipped edge is the triangle
made at `e.sym`.) -/
def sq3Piece (σ : Edge → Option PId) (v : PId) (e : Edge) : Tri :=
  match σ e.sym with
  | none => (e.1, e.2, v)
  | some v' => (v, v', e.2)

/-- the triangles made for one input triangle -/
def Tri.sq3 (σ : Edge → Option PId) (t : Tri) : List Tri :=
  match σ (t.1, t.2.1) with
  | none => [t]
  | some v => t.darts.map (sq3Piece σ v)

/-- `σ e` names the new point of the triangle with the directed edge `e`, if that triangle is subdivided: the three
directed edges of a triangle have the same name, different triangles have different names, and names are not points of
the triangles. -/
structure Centres (T : List Tri) (σ : Edge → Option PId) : Prop where
  only : ∀ e v, σ e = some v → e ∈ dartsOf T
  same : ∀ t ∈ T, ∀ e ∈ t.darts, ∀ e' ∈ t.darts, σ e = σ e'
  fresh : ∀ e v, σ e = some v → ∀ t ∈ T, v ∉ t.verts
  inj : ∀ e e' v, σ e = some v → σ e' = some v → ∀ t ∈ T, e ∈ t.darts → e' ∈ t.darts

/-- The new point of the triangle with the directed edge `e`, if it is subdivided: the subdivided triangles receive the
ids `n, n+1, …` in the order of the list (of a triangle listed twice, the first counts). -/
def Mesh.centreOf (m : Mesh P D) (sel : List CId) (e : Edge) : Option PId :=
  ((m.selected sel).findIdx? (fun t => t.darts.contains e)).map (m.points.length + ·)

/-- `d` is made from the triangle `t`: it is `t` itself, if `t` is not subdivided; or one of the triangles at an edge of
`t`, if it is.  (An edge between two subdivided triangles is flipped; both triangles at the new edge lie partly in the
one and partly in the other.) -/
def MadeFrom (σ : Edge → Option PId) (t d : Tri) : Prop :=
  (d = t ∧ ∀ e ∈ t.darts, σ e = none) ∨
  ∃ e ∈ t.darts, ∃ v, σ e = some v ∧ (d = sq3Piece σ v e ∨ ∃ v', σ e.sym = some v' ∧ d = sq3Piece σ v' e.sym)

end Verif
