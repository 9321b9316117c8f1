import Verif.Proofs.Shape
import Verif.Properties.FaceSplit
/-
C49: connectivity does not depend on coordinates or arithmetic.
`P₁`, `P₂` are any two types of points and `K₁`, `K₂` any two types of weights; addition and scaling of points need not obey
any law, so that one side may be exact and the other rounded, and coordinates may be infinite or not a number.
-/
namespace Verif
variable {K₁ P₁ K₂ P₂ D : Type} [Field K₁] [Zero P₁] [Add P₁] [SMul K₁ P₁] [Field K₂] [Zero P₂] [Add P₂] [SMul K₂ P₂]

/-- C49, cell filters.  Two meshes, valid or not, that differ only in the coordinates of their points: the runs return, throw
or have undefined behaviour alike, the outputs differ only in coordinates, and the recorded cells are the same. -/
theorem C49_shape_only (sch : Scheme) (lib : QELib) (cos₁ : Nat → K₁) (cos₂ : Nat → K₂) (f : Filt)
    {inp₁ : Mesh P₁ D} {inp₂ : Mesh P₂ D} (h : inp₁.shape = inp₂.shape) :
    (cellUpdate sch lib cos₁ f inp₁).1.map Mesh.shape = (cellUpdate sch lib cos₂ f inp₂).1.map Mesh.shape ∧
    (cellUpdate sch lib cos₁ f inp₁).2.cells = (cellUpdate sch lib cos₂ f inp₂).2.cells := by
  rw [← (cellUpdate_shape sch lib cos₁ f inp₁).1, ← (cellUpdate_shape sch lib cos₁ f inp₁).2,
    ← (cellUpdate_shape sch lib cos₂ f inp₂).1, ← (cellUpdate_shape sch lib cos₂ f inp₂).2, h]
  exact ⟨rfl, rfl⟩

/-- C49, edge filters. -/
theorem C49_shape_only_edge (sch : EdgeScheme) (lib : QELib) (cos₁ : Nat → K₁) (cos₂ : Nat → K₂) (f : Filt)
    {inp₁ : Mesh P₁ D} {inp₂ : Mesh P₂ D} (h : inp₁.shape = inp₂.shape) :
    (edgeUpdate sch lib cos₁ f inp₁).1.map Mesh.shape = (edgeUpdate sch lib cos₂ f inp₂).1.map Mesh.shape := by
  rw [← edgeUpdate_shape sch lib cos₁ f inp₁, ← edgeUpdate_shape sch lib cos₂ f inp₂, h]

/-- C49, iterative filter with any number of levels. -/
theorem C49_shape_only_iterative (sch : Scheme) (lib : QELib) (cos₁ : Nat → K₁) (cos₂ : Nat → K₂) (f : Iter)
    {inp₁ : Mesh P₁ D} {inp₂ : Mesh P₂ D} (h : inp₁.shape = inp₂.shape) :
    (iterUpdate sch lib cos₁ f inp₁).1.map Mesh.shape = (iterUpdate sch lib cos₂ f inp₂).1.map Mesh.shape := by
  rw [← iterUpdate_shape sch lib cos₁ f inp₁, ← iterUpdate_shape sch lib cos₂ f inp₂, h]

theorem shape_mapPoints {P P' : Type} (φ : P → P') (m : Mesh P D) : (m.mapPoints φ).shape = m.shape := by
  simp [Mesh.shape, Mesh.mapPoints, Function.comp_def]

/-! Points in floating-point arithmetic. -/

/-- a point with three `double` coordinates -/
structure F3 where
  x : Float
  y : Float
  z : Float

instance : Zero F3 := ⟨⟨0, 0, 0⟩⟩
instance : Add F3 := ⟨fun p q => ⟨p.x + q.x, p.y + q.y, p.z + q.z⟩⟩

/-- the nearest `double` to a weight, roughly -/
def weightF (q : ℚ) : Float := Float.ofInt q.num / Float.ofNat q.den

instance : SMul ℚ F3 := ⟨fun w p => ⟨weightF w * p.x, weightF w * p.y, weightF w * p.z⟩⟩

/-- the patch with rounded coordinates … -/
def patchF : Mesh F3 Nat := patchMesh.mapPoints fun p => ⟨weightF p.1, weightF p.2.1, weightF p.2.2⟩

/-- … and with coordinates that are not numbers -/
def patchNaN : Mesh F3 Nat := patchMesh.mapPoints fun _ => ⟨0 / 0, 0 / 0, 0 / 0⟩

example : (cellUpdate .loop someLib cos0 (usedFilt [1, 3]) patchF).1.map Mesh.shape =
    (cellUpdate .loop someLib cos0 (usedFilt [1, 3]) patchMesh).1.map Mesh.shape :=
  (C49_shape_only _ _ _ _ _ (shape_mapPoints _ _)).1

example : (edgeUpdate .butterfly someLib cos0 (Filt.new.setEdges [some (0, 1), none]) patchNaN).1.map Mesh.shape =
    (edgeUpdate .butterfly someLib cos0 (Filt.new.setEdges [some (0, 1), none]) patchMesh).1.map Mesh.shape :=
  C49_shape_only_edge _ _ _ _ _ (shape_mapPoints _ _)

example : (iterUpdate .sqrt3 someLib cos0 ((Iter.new.setCells [1, 3]).setLevels 5) patchF).1.map Mesh.shape =
    (iterUpdate .sqrt3 someLib cos0 ((Iter.new.setCells [1, 3]).setLevels 5) patchNaN).1.map Mesh.shape :=
  C49_shape_only_iterative _ _ _ _ _ ((shape_mapPoints _ _).trans (shape_mapPoints _ _).symm)

/-- the theorems that do not speak about coordinates hold for rounded arithmetic as they stand -/
example : ∃ out f', cellUpdate .butterfly someLib cos0 (usedFilt [1, 3]) patchNaN = (.ok out, f') := by
  obtain ⟨out, f', h, _⟩ := C01_face_split_completes (K := ℚ) (inp := patchNaN) (f := usedFilt [1, 3]) (sch := .butterfly) (by decide) someLib cos0
    (patchMesh_needs _).mapPoints (show patchMesh.SelOK _ from patchMesh_sel)
  exact ⟨out, f', h⟩

end Verif
