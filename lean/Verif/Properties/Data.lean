import Verif.Proofs.Data
import Verif.Properties.Conditional
/-
C97: cell data is carried along, never interpreted.
-/
namespace Verif
set_option linter.unusedSectionVars false
variable {K P Q D E : Type} [Field K] [Zero P] [Add P] [SMul K P] [Zero Q]

/-- C97: the filters carry cell data and never look at it.  If every value is replaced by what any function `g` makes of it,
maybe of another type, then the run does the same with the new values: the output is the old output with `g` applied to its
data, a failure is the same failure, and the members of the filter object are the same afterwards.  For every mesh, also
those that the filters do not accept, every selection and history, every arithmetic, and every conversion of coordinates.

For a filter whose output mesh has another type of cell data see `C97_two_types`. -/
theorem C97_carried (g : D → E) (lib : QELib) (cosn : Nat → K) (inp : Mesh P D) :
    (∀ sch f, cellUpdate sch lib cosn f (inp.mapData g) =
      ((cellUpdate sch lib cosn f inp).1.map (·.mapData g), (cellUpdate sch lib cosn f inp).2)) ∧
    (∀ sch f, edgeUpdate sch lib cosn f (inp.mapData g) =
      ((edgeUpdate sch lib cosn f inp).1.map (·.mapData g), (edgeUpdate sch lib cosn f inp).2)) ∧
    (∀ sch f, iterUpdate sch lib cosn f (inp.mapData g) =
      ((iterUpdate sch lib cosn f inp).1.map (·.mapData g), (iterUpdate sch lib cosn f inp).2)) ∧
    (∀ sch (cast : P → Q) f, cellUpdateTo sch lib cast cosn f (inp.mapData g) =
      ((cellUpdateTo sch lib cast cosn f inp).1.map (·.mapData g), (cellUpdateTo sch lib cast cosn f inp).2)) ∧
    ∀ sch (cast : P → Q) f, edgeUpdateTo sch lib cast cosn f (inp.mapData g) =
      ((edgeUpdateTo sch lib cast cosn f inp).1.map (·.mapData g), (edgeUpdateTo sch lib cast cosn f inp).2) :=
  ⟨fun sch f => cellUpdate_mapData g sch lib cosn f inp,
    fun sch f => runFilter_mapData f (simD_edgeGenerate (noData_mapData g inp) (passed_map g inp) sch cosn),
    fun sch f => iterUpdate_mapData g sch lib cosn f inp,
    fun sch cast f => runFilter_mapData f (simD_cellGenerateTo (noData_mapData g inp) (passed_map g inp) sch cast cosn),
    fun sch cast f => runFilter_mapData f (simD_edgeGenerateTo (noData_mapData g inp) (passed_map g inp) sch cast cosn)⟩

/-- C97: cell data has no influence on anything else.  Two meshes that agree but for their data (other values, values on other
cells, values of another type, or none at all) give outputs that agree but for their data, or the same failure, and leave the
same members behind.  The conditional filters with the two criteria of this module, too; they stop after the same number of
rounds, if they stop. -/
theorem C97_no_influence [LinearOrder K] (lib : QELib) (cosn : Nat → K) {inp : Mesh P D} {inp' : Mesh P E}
    (h : inp'.noData = inp.noData) :
    (∀ sch f, (cellUpdate sch lib cosn f inp').1.map Mesh.noData = (cellUpdate sch lib cosn f inp).1.map Mesh.noData ∧
      (cellUpdate sch lib cosn f inp').2 = (cellUpdate sch lib cosn f inp).2) ∧
    (∀ sch f, (edgeUpdate sch lib cosn f inp').1.map Mesh.noData = (edgeUpdate sch lib cosn f inp).1.map Mesh.noData ∧
      (edgeUpdate sch lib cosn f inp').2 = (edgeUpdate sch lib cosn f inp).2) ∧
    (∀ sch f, (iterUpdate sch lib cosn f inp').1.map Mesh.noData = (iterUpdate sch lib cosn f inp).1.map Mesh.noData ∧
      (iterUpdate sch lib cosn f inp').2 = (iterUpdate sch lib cosn f inp).2) ∧
    (∀ sch area (A : K) n c,
      (condGenerate lib (condCellUpd sch lib cosn) (some (areaCompute area A)) n c inp').map (fun r => (r.1.map Mesh.noData, r.2)) =
      (condGenerate lib (condCellUpd sch lib cosn) (some (areaCompute area A)) n c inp).map fun r => (r.1.map Mesh.noData, r.2)) ∧
    ∀ sch len (L : K) n c,
      (condGenerate lib (condEdgeUpd sch lib cosn) (some (lengthCompute len L)) n c inp').map (fun r => (r.1.map Mesh.noData, r.2)) =
      (condGenerate lib (condEdgeUpd sch lib cosn) (some (lengthCompute len L)) n c inp).map fun r => (r.1.map Mesh.noData, r.2) :=
  ⟨fun sch f => cellUpdate_noData h sch lib cosn f, fun sch f => edgeUpdate_noData h sch lib cosn f,
    fun sch f => iterUpdate_noData h sch lib cosn f,
    fun sch area A n c => condGenerate_noData lib (fun f sel _ _ h => cellUpdate_noData h sch lib cosn (f.setCells sel))
      (fun m m' => areaCompute_noData area A m m') n c h,
    fun sch len L n c => condGenerate_noData lib (fun f sel _ _ h => edgeUpdate_noData h sch lib cosn (f.setEdges sel))
      (fun m m' => lengthCompute_noData len L m m') n c h⟩

/-- `patchMesh` with texts on its cells -/
def namedPatch : Mesh Q3 String := patchMesh.mapData fun d => if d = 7 then "liver" else "other"

/-- every cell filter returns on it, with the texts where the numbers would be -/
example (sch : Scheme) : ∃ out f', cellUpdate sch someLib cos0 (usedFilt [1, 3]) patchMesh = (.ok out, f') ∧
    cellUpdate sch someLib cos0 (usedFilt [1, 3]) namedPatch = (.ok (out.mapData fun d => if d = 7 then "liver" else "other"), f') ∧
    out.cellData.isSome = true := by
  have key : ∀ sch : Scheme, (match (cellUpdate sch someLib cos0 (usedFilt [1, 3]) patchMesh).1 with
    | .ok m => m.cellData.isSome
    | .error _ => false) = true := by
    intro sch
    cases sch <;> decide +kernel
  have hn := (C97_carried (Q := Q3) (fun d : Nat => if d = 7 then "liver" else "other") someLib cos0 patchMesh).1 sch (usedFilt [1, 3])
  have hk := key sch
  rcases h : cellUpdate sch someLib cos0 (usedFilt [1, 3]) patchMesh with ⟨_ | out, f'⟩
  · rw [h] at hk; cases hk
  · rw [h] at hn hk
    exact ⟨out, f', rfl, hn, hk⟩

/-- with and without texts, the conditional filter does the same -/
example : namedPatch.noData = ({ patchMesh with cellData := none } : Mesh Q3 Nat).noData ∧ namedPatch.cellData.isSome = true ∧
    returned (condGenerate someLib (condCellUpd .linear someLib cos0) (some (areaCompute shadow 5)) 3 ⟨Filt.new, []⟩
      ({ patchMesh with cellData := none } : Mesh Q3 Nat)) = true := by
  refine ⟨rfl, rfl, by decide +kernel⟩

end Verif
