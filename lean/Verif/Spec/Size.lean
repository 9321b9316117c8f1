import Verif.Spec.Geometry
/-
The exact size of the result of the conditional filter with the Linear cell filter and the area criterion.
-/
namespace Verif

/-- how often an area `a` has to be quartered until it is at most `A` -/
noncomputable def quarterings (A a : ℝ) : ℕ := sInf {n | a ≤ 4 ^ n * A}

/-- the depth of the triangle that has the directed edge `e`; 0 if there is none -/
def depthAt (T : List Tri) (d : Tri → ℕ) (e : Edge) : ℕ := ((T.find? fun t => decide (e ∈ t.darts)).map d).getD 0

/-- The number of triangles a triangle of depth `d t` is cut into: `4 ^ d` of its own, and for each side with a deeper
triangle beyond it as many more as there are points on that side that its own cuts do not put there. -/
def piecesOf (T : List Tri) (d : Tri → ℕ) (t : Tri) : ℕ :=
  4 ^ d t + (t.darts.map fun e => 2 ^ max (d t) (depthAt T d e.sym) - 2 ^ d t).sum

variable {E D : Type} [NormedAddCommGroup E] [InnerProductSpace ℝ E]

/-- the depth of a triangle of a mesh -/
noncomputable def Mesh.depth (m : Mesh E D) (A : ℝ) (t : Tri) : ℕ := quarterings A (m.areaOf t)

/-- the predicted number of triangles -/
noncomputable def Mesh.predicted (m : Mesh E D) (A : ℝ) : ℕ := (m.tris.map (piecesOf m.tris (m.depth A))).sum

/-- the predicted number of boundary edges: each one is halved as often as its triangle is quartered -/
noncomputable def Mesh.predictedRim (m : Mesh E D) (A : ℝ) : ℕ :=
  (((dartsOf m.tris).filter fun e => decide (e.sym ∉ dartsOf m.tris)).map fun e => 2 ^ depthAt m.tris (m.depth A) e).sum

/-- the number of boundary edges -/
def Mesh.rimLength (m : Mesh E D) : ℕ := ((dartsOf m.tris).filter fun e => decide (e.sym ∉ dartsOf m.tris)).length

end Verif
