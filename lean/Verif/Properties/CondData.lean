import Verif.Proofs.NoData
import Verif.Properties.Conditional
/-
C46: cell data and the conditional filter.
-/
namespace Verif
set_option linter.unusedSectionVars false
variable {K P D : Type} [Field K] [Zero P] [Add P] [SMul K P]

/-- C46, what holds: no data is made up.  A run of any of the filters on a mesh without cell data gives a mesh without cell
data, whatever the mesh and the history.  Missing: that the conditional filter keeps the data there is, which is false
(`C46_conditional_data_refuted`). -/
theorem C46_no_data_partial {lib : QELib} {cosn : Nat → K} {f f' : Filt} {inp out : Mesh P D} (hd : inp.cellData = none)
    (h : (∃ sch, cellUpdate sch lib cosn f inp = (.ok out, f')) ∨ ∃ sch, edgeUpdate sch lib cosn f inp = (.ok out, f')) :
    ∀ k, out.dataAt k = none := by
  have : out.cellData = none := by
    rcases h with ⟨sch, h⟩ | ⟨sch, h⟩
    · exact cellUpdate_no hd h
    · exact edgeUpdate_no hd h
  intro k
  unfold Mesh.dataAt
  rw [this]; rfl

/-- `patchMesh` without its data -/
def patchBare : Mesh Q3 Nat := { patchMesh with cellData := none }

example (sch : Scheme) : ∃ out f', cellUpdate sch someLib cos0 (usedFilt [1, 3]) patchBare = (.ok out, f') ∧
    ∀ k, out.dataAt k = none := by
  have key : ∀ sch : Scheme, (match (cellUpdate sch someLib cos0 (usedFilt [1, 3]) patchBare).1 with
    | .ok _ => true
    | .error _ => false) = true := by
    intro sch
    cases sch <;> decide +kernel
  rcases h : cellUpdate sch someLib cos0 (usedFilt [1, 3]) patchBare with ⟨_ | out, f'⟩
  · have := key sch
    rw [h] at this; cases this
  · exact ⟨out, f', rfl, C46_no_data_partial rfl (Or.inl ⟨sch, h⟩)⟩

variable [LinearOrder K]

/-- C46 is false of the conditional filter: whatever the mesh, the criterion and the history, a run that returns gives a mesh
without cell data. -/
theorem C46_conditional_data_refuted {lib : QELib} {cosn : Nat → K} {inp out : Mesh P D} {fuel : Nat} :
    (∀ {sch : Scheme} {crit} {c c' : Cond Filt CId},
      condGenerate lib (condCellUpd sch lib cosn) crit fuel c inp = some (.ok out, c') → ∀ k, out.dataAt k = none) ∧
    ∀ {sch : EdgeScheme} {crit} {c c' : Cond Filt (Option Edge)},
      condGenerate lib (condEdgeUpd sch lib cosn) crit fuel c inp = some (.ok out, c') → ∀ k, out.dataAt k = none := by
  have key : out.cellData = none → ∀ k, out.dataAt k = none := by
    intro h k
    unfold Mesh.dataAt
    rw [h]; rfl
  exact ⟨fun h => key (condGenerate_no (fun _ _ _ _ _ h1 h2 => cellUpdate_no h1 h2) h),
    fun h => key (condGenerate_no (fun _ _ _ _ _ h1 h2 => edgeUpdate_no h1 h2) h)⟩

/-- `patchMesh` has data on cell 0; after a run of the conditional filter that changes nothing else it is gone -/
example : ∃ out c', condGenerate someLib (condCellUpd .linear someLib cos0) (some (areaCompute shadow 16)) 0
      ⟨usedFilt [1, 3], [5]⟩ patchMesh = some (.ok out, c') ∧ out.points = patchMesh.points ∧ out.tris = patchMesh.tris ∧
    patchMesh.dataAt 0 = some 7 ∧ out.dataAt 0 = none := by
  obtain ⟨out, h1, h2, h3, -⟩ := C31_area_no_op (sch := .linear) (area := shadow) (A := 16) patchMesh_ok.1 (by
    obtain ⟨l, h, -, h'⟩ := C28_area_exact shadow 16 patchMesh_ok.1.cells_sorted patchMesh_ok.1.allTriangles
      patchMesh_ok.1.cornersExist []
    have : areaCompute shadow 16 patchMesh [] = (.ok (), []) := by decide +kernel
    rw [this] at h
    cases h
    intro k hk
    exact absurd ((h' k).2 hk) (by simp)) someLib cos0 0 ⟨usedFilt [1, 3], [5]⟩
  exact ⟨out, _, h1, h2, h3, by decide, C46_conditional_data_refuted.1 h1 0⟩

end Verif
