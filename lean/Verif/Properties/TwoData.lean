import Verif.Proofs.TwoData
import Verif.Properties.Data
import Verif.Properties.TwoTypes
/-
C97 for filters whose output mesh has another type of cell data than the input mesh.
-/
namespace Verif
set_option linter.unusedSectionVars false
variable {K P Q D E : Type} [Field K] [Zero P] [Add P] [SMul K P] [Zero Q]

/-- C97: a filter whose output mesh has another type of cell data does what the filter with one type does, and converts the value
of each output cell once.  It makes no difference whether the data are converted by the filter, in the mesh before, or in the mesh
after.  For every mesh, valid or not, every selection and history, and every conversion of coordinates that goes with it. -/
theorem C97_two_types (cv : D → E) (lib : QELib) (cast : P → Q) (cosn : Nat → K) (f : Filt) (inp : Mesh P D) :
    (∀ sch, cellUpdateData sch lib cast cv cosn f inp =
        ((cellUpdateTo sch lib cast cosn f inp).1.map (·.mapData cv), (cellUpdateTo sch lib cast cosn f inp).2) ∧
      cellUpdateData sch lib cast cv cosn f inp = cellUpdateTo sch lib cast cosn f (inp.mapData cv)) ∧
    (∀ sch, edgeUpdateData sch lib cast cv cosn f inp =
        ((edgeUpdateTo sch lib cast cosn f inp).1.map (·.mapData cv), (edgeUpdateTo sch lib cast cosn f inp).2) ∧
      edgeUpdateData sch lib cast cv cosn f inp = edgeUpdateTo sch lib cast cosn f (inp.mapData cv)) ∧
    linearUpdateData K lib cv f inp =
        ((cellUpdate .linear lib cosn f inp).1.map (·.mapData cv), (cellUpdate .linear lib cosn f inp).2) ∧
      linearUpdateData K lib cv f inp = cellUpdate .linear lib cosn f (inp.mapData cv) := by
  obtain ⟨h1, -, -, h2, h3⟩ := C97_carried (Q := Q) cv lib cosn inp
  refine ⟨fun sch => ⟨cellUpdateData_eq sch lib cast cv cosn f inp, ?_⟩,
    fun sch => ⟨edgeUpdateData_eq sch lib cast cv cosn f inp, ?_⟩, linearUpdateData_eq lib cv cosn f inp, ?_⟩
  · rw [cellUpdateData_eq, h2]
  · rw [edgeUpdateData_eq, h3]
  · rw [linearUpdateData_eq lib cv cosn, h1]

/-- C97: what arrives at a cell of the output: the cells are those of the filter with one mesh type, and each carries what it
would carry there (C14), converted; a cell without data there has none here. -/
theorem C97_converted_once {sch : TwoTypeScheme} {cv : D → E} {lib : QELib} {cast : P → Q} (h0 : cast 0 = 0) {cosn : Nat → K}
    {f f' : Filt} {inp : Mesh P D} {out : Mesh Q E} (h : cellUpdateData sch lib cast cv cosn f inp = (.ok out, f')) :
    ∃ (one : Mesh P D) (g : Filt), cellUpdate sch.toScheme lib cosn f inp = (.ok one, g) ∧ out.cells = one.cells ∧
      ∀ k, out.dataAt k = (one.dataAt k).map cv := by
  rw [cellUpdateData_eq] at h
  rcases hr : cellUpdateTo sch lib cast cosn f inp with ⟨_ | m, g⟩
  · rw [hr] at h; cases h
  obtain ⟨one, g', h1, rfl⟩ := cellUpdateTo_ok h0 hr
  rw [hr] at h
  cases h
  refine ⟨one, g', h1, rfl, fun k => ?_⟩
  unfold Mesh.dataAt
  have hd : ((one.mapPoints cast).mapData cv).cellData = one.cellData.map fun a => a.map fun kd => (kd.1, cv kd.2) := rfl
  rw [hd]
  cases one.cellData with
  | none => rfl
  | some a => exact AMap.find?_map cv a k

section examples

/-- numbers to truth values: the four pieces of cell 1 of a tetrahedron carry the value of cell 1 -/
example : ((linearUpdateData ℚ someLib (fun d : Nat => d == 11) (usedFilt [1]) tetraMesh).1.toOption.bind fun m =>
    m.cellData.map fun a => a.countP fun kd => kd.2) = some 4 := by
  decide +kernel

/-- an edge filter that converts coordinates and data -/
example : ((edgeUpdateData .linear someLib toWhole (fun d : Nat => d == 10) cos0 (Filt.new.setEdges [some (1, 2)])
    tetraHalf).1.toOption.bind fun m => m.cellData.map fun a => a.countP fun kd => kd.2) = some 2 := by
  decide +kernel

/-- and a cell filter -/
example : ((cellUpdateData .sqrt3 someLib toWhole (fun d : Nat => d == 10) cos0 (usedFilt [0])
    tetraHalf).1.toOption.bind fun m => m.cellData.map fun a => a.countP fun kd => kd.2) = some 3 := by
  decide +kernel

end examples
end Verif
