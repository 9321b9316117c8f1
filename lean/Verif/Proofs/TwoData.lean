import Verif.Model.TwoData
import Verif.Proofs.Data
/-
With two types of cell data the cells are made as from the mesh with the converted data.
-/
namespace Verif
set_option linter.unusedSectionVars false
variable {K P Q D E : Type} (cv : D → E) (inp : Mesh P D)

theorem passCellDataTo_eq : passCellDataTo (Q := Q) cv inp = passCellData (inp.mapData cv) := by
  funext id e s
  unfold passCellDataTo passCellData
  cases e with
  | none => rfl
  | some e =>
    have hd : (inp.mapData cv).cellData = inp.cellData.map fun a => a.map fun kd => (kd.1, cv kd.2) := rfl
    simp only [hd]
    cases hc : inp.cellData with
    | none => rfl
    | some data =>
      simp only [Option.map_some]
      rw [AMap.find?_map cv data id]
      cases data.find? id <;> rfl

theorem addPassData_eq : addPassData (Q := Q) cv inp = addPass (inp.mapData cv) := by
  funext id a b c
  unfold addPassData addPass
  rw [passCellDataTo_eq]

theorem outputCellsOfTriangleData_eq :
    outputCellsOfTriangleData (Q := Q) cv inp = outputCellsOfTriangle (inp.mapData cv) := by
  funext id t s
  unfold outputCellsOfTriangleData outputCellsOfTriangle splitOneData splitOne splitTwoData splitTwo splitThreeData splitThree
  rw [addPassData_eq]
  rfl

theorem generateOutputCellsData_eq : generateOutputCellsData (Q := Q) cv inp = generateOutputCells (inp.mapData cv) := by
  unfold generateOutputCellsData generateOutputCells
  have : actCellData (Q := Q) cv inp = actCell (inp.mapData cv) := by
    funext c
    unfold actCellData actCell
    rw [outputCellsOfTriangleData_eq]
    rfl
  rw [this]
  rfl

theorem sq3DartsData_eq (u : Bool) (id : CId) (t : PId × PId × PId) (l : List (PId × PId)) :
    sq3DartsData (Q := Q) cv inp u id t l = sq3Darts (inp.mapData cv) u id t l := by
  have he : sq3EmitData (Q := Q) cv inp = sq3Emit (inp.mapData cv) := by
    funext u id a b c
    unfold sq3EmitData sq3Emit
    rw [addPassData_eq]
  induction l with
  | nil => rfl
  | cons xy l ih =>
    unfold sq3DartsData sq3Darts
    rw [ih, he, addPassData_eq]
    rfl

theorem sq3OutputCellsData_eq : sq3OutputCellsData (Q := Q) cv inp = sq3OutputCells (inp.mapData cv) := by
  unfold sq3OutputCellsData sq3OutputCells
  have : sq3ActData (Q := Q) cv inp = sq3Act (inp.mapData cv) := by
    funext c
    unfold sq3ActData sq3Act
    simp only [sq3DartsData_eq]
    rfl
  rw [this]
  rfl

theorem noData_bare : (inp.bare : Mesh P E).noData = inp.noData := rfl

section
variable [Field K] [Zero P] [Add P] [SMul K P] [Zero Q] {Rel : Option (AMap D) → Option (AMap E) → Prop} {inp}

theorem simD_cellPointsTo {inp' : Mesh P E} (hi : inp'.noData = inp.noData) (sch : TwoTypeScheme) (cast : P → Q) (cosn : Nat → K) :
    Sim (Carried (Q := Q) Rel) Eq (cellPointsTo sch cast cosn inp) (cellPointsTo sch cast cosn inp') := by
  unfold cellPointsTo
  rw [loopPoint_data hi, butterflyPoint_data hi]
  cases sch with
  | loop => exact simD_generateOutputPoints hi (simD_loopCopyTo hi cast cosn) (simD_addThree hi _)
  | butterfly => exact simD_generateOutputPoints hi (simD_copyPointsTo hi cast) (simD_addThree hi _)
  | sqrt3 => exact simD_generateOutputPoints hi (simD_copyPointsTo hi cast) (simD_sq3AddNewTo hi cast)

theorem simD_edgePointsTo {inp' : Mesh P E} (hi : inp'.noData = inp.noData) (sch : EdgeScheme) (cast : P → Q) (cosn : Nat → K) :
    Sim (Carried (Q := Q) Rel) Eq (edgePointsTo sch cast cosn inp) (edgePointsTo sch cast cosn inp') := by
  unfold edgePointsTo
  rw [linearPoint_data hi, loopPoint_data hi, butterflyPoint_data hi]
  cases sch with
  | linear => exact simD_edgeOutputPoints hi (simD_copyPointsTo hi cast) (simD_addNewEdgePoint _)
  | loop => exact simD_edgeOutputPoints hi (simD_loopEdgeCopyTo hi cast cosn) (simD_addNewEdgePoint _)
  | butterfly => exact simD_edgeOutputPoints hi (simD_copyPointsTo hi cast) (simD_addNewEdgePoint _)

theorem cellGenerateTo_split (sch : TwoTypeScheme) (cast : P → Q) (cosn : Nat → K) (inp : Mesh P D) :
    cellGenerateTo sch cast cosn inp = generateData (cellPointsTo sch cast cosn inp)
      (match sch with
        | .sqrt3 => sq3OutputCells inp
        | _ => generateOutputCells inp) := by
  cases sch <;> rfl

theorem edgeGenerateTo_split (sch : EdgeScheme) (cast : P → Q) (cosn : Nat → K) (inp : Mesh P D) :
    edgeGenerateTo sch cast cosn inp = generateData (edgePointsTo sch cast cosn inp) (generateOutputCells inp) := by
  cases sch <;> rfl

theorem cellUpdateData_eq (sch : TwoTypeScheme) (lib : QELib) (cast : P → Q) (cv : D → E) (cosn : Nat → K) (f : Filt)
    (inp : Mesh P D) : cellUpdateData sch lib cast cv cosn f inp =
      ((cellUpdateTo sch lib cast cosn f inp).1.map (·.mapData cv), (cellUpdateTo sch lib cast cosn f inp).2) := by
  refine runFilter_mapData f ?_
  rw [cellGenerateTo_split]
  refine (simD_cellPointsTo (noData_bare inp) sch cast cosn).bind fun _ _ _ => ?_
  unfold cellCellsTo
  rw [sq3OutputCellsData_eq, generateOutputCellsData_eq]
  cases sch with
  | sqrt3 => exact simD_sq3OutputCells (noData_mapData cv inp) (passed_map cv inp)
  | loop => exact simD_generateOutputCells (noData_mapData cv inp) (passed_map cv inp)
  | butterfly => exact simD_generateOutputCells (noData_mapData cv inp) (passed_map cv inp)

theorem edgeUpdateData_eq (sch : EdgeScheme) (lib : QELib) (cast : P → Q) (cv : D → E) (cosn : Nat → K) (f : Filt)
    (inp : Mesh P D) : edgeUpdateData sch lib cast cv cosn f inp =
      ((edgeUpdateTo sch lib cast cosn f inp).1.map (·.mapData cv), (edgeUpdateTo sch lib cast cosn f inp).2) := by
  refine runFilter_mapData f ?_
  rw [edgeGenerateTo_split]
  refine (simD_edgePointsTo (noData_bare inp) sch cast cosn).bind fun _ _ _ => ?_
  rw [generateOutputCellsData_eq]
  exact simD_generateOutputCells (noData_mapData cv inp) (passed_map cv inp)

theorem linearUpdateData_eq (lib : QELib) (cv : D → E) (cosn : Nat → K) (f : Filt) (inp : Mesh P D) :
    linearUpdateData K lib cv f inp =
      ((cellUpdate .linear lib cosn f inp).1.map (·.mapData cv), (cellUpdate .linear lib cosn f inp).2) := by
  refine runFilter_mapData f ?_
  refine (simD_generateOutputPoints (noData_bare inp) (simD_copyPoints (noData_bare inp))
    (simD_linearAddNew (noData_bare inp))).bind fun _ _ _ => ?_
  rw [generateOutputCellsData_eq]
  exact simD_generateOutputCells (noData_mapData cv inp) (passed_map cv inp)

end
end Verif
