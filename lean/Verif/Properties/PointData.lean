import Verif.Proofs.NoPointData
import Verif.Spec.PointData
import Verif.Properties.Conditional
/-
C90: data at the points.
-/
namespace Verif
set_option linter.unusedSectionVars false
variable {K P D : Type} [Field K] [Zero P] [Add P] [SMul K P]

section read
variable (m : Mesh P D) (d : Option (AMap D))

theorem ringFrom_other (start : Edge) (n : Nat) (cur : Edge) : ringFrom (m.withPointData d) start n cur = ringFrom m start n cur := by
  induction n generalizing cur with
  | zero => rfl
  | succ n ih =>
    unfold ringFrom
    simp only [ih]
    rfl

theorem sumFrom_other (acc : P) (l : List Edge) : sumFrom (m.withPointData d) acc l = sumFrom m acc l := by
  induction l generalizing acc with
  | nil => rfl
  | cons e l ih =>
    unfold sumFrom
    simp only [ih]
    rfl

theorem smoothingPoint_other (cosn : Nat → K) : smoothingPoint cosn (m.withPointData d) = smoothingPoint cosn m := by
  funext v p
  unfold smoothingPoint ringAt sumDest
  simp only [ringFrom_other, sumFrom_other]
  rfl

theorem loopSmoothSet_other (l : List CId) : loopSmoothSet (m.withPointData d) l = loopSmoothSet m l := by
  induction l with
  | nil => rfl
  | cons k l ih =>
    unfold loopSmoothSet
    simp only [ih]
    rfl

theorem loopEdgeWalk_other (sel : List (Option Edge)) (start : Edge) (n : Nat) (q : Edge) (q' : Option Edge) :
    loopEdgeWalk (m.withPointData d) sel start n q q' = loopEdgeWalk m sel start n q q' := by
  induction n generalizing q q' with
  | zero => rfl
  | succ n ih =>
    unfold loopEdgeWalk
    simp only [ih]
    rfl

theorem loopEdgeValue_other (cosn : Nat → K) (sel : List (Option Edge)) :
    loopEdgeValue cosn (m.withPointData d) sel = loopEdgeValue cosn m sel := by
  funext v p
  unfold loopEdgeValue averageOrigin ringAt sumDest
  simp only [ringFrom_other, sumFrom_other, loopEdgeWalk_other]
  rfl

theorem loopCopy_other (cosn : Nat → K) : loopCopy cosn (m.withPointData d) = loopCopy cosn m := by
  unfold loopCopy
  simp only [smoothingPoint_other, loopSmoothSet_other]
  rfl

theorem loopEdgeCopy_other (cosn : Nat → K) : loopEdgeCopy cosn (m.withPointData d) = loopEdgeCopy cosn m := by
  unfold loopEdgeCopy
  simp only [loopEdgeValue_other]
  rfl

theorem cellUpdate_other (sch : Scheme) (lib : QELib) (cosn : Nat → K) (f : Filt) :
    cellUpdate sch lib cosn f (m.withPointData d) = cellUpdate sch lib cosn f m := by
  cases sch
  · rfl
  · unfold cellUpdate cellGenerate
    simp only [loopCopy_other]
    rfl
  · rfl
  · rfl

theorem edgeUpdate_other (sch : EdgeScheme) (lib : QELib) (cosn : Nat → K) (f : Filt) :
    edgeUpdate sch lib cosn f (m.withPointData d) = edgeUpdate sch lib cosn f m := by
  cases sch
  · rfl
  · unfold edgeUpdate edgeGenerate
    simp only [loopEdgeCopy_other]
    rfl
  · rfl

end read

theorem iterLoop_pd {sch : Scheme} {lib : QELib} {cosn : Nat → K} {n i : Nat} {fs fs' : List Filt} {cur out : Mesh P D}
    (hc : cur.pointData = none) (h : iterLoop sch lib cosn n i fs cur = (.ok out, fs')) : out.pointData = none := by
  induction n generalizing i fs cur with
  | zero => cases h; exact hc
  | succ n ih =>
    unfold iterLoop at h
    split at h
    · split at h
      · rename_i hu
        exact ih (cellUpdate_pd hu) h
      · cases h
    · cases h

theorem iterUpdate_pd {sch : Scheme} {lib : QELib} {cosn : Nat → K} {f f' : Iter} {inp out : Mesh P D}
    (h : iterUpdate sch lib cosn f inp = (.ok out, f')) : out.pointData = none := by
  unfold iterUpdate at h
  simp only at h
  split at h
  · cases h
  · split at h
    · cases h
    · rename_i hu
      exact iterLoop_pd (cellUpdate_pd hu) (Prod.ext_iff.2 ⟨(Prod.ext_iff.1 h).1, rfl⟩)

variable [LinearOrder K]

/-- C90, what holds: the data at the points has no influence.  With other data at its points, or none, a mesh gives the same
run of every filter: the same output or the same failure, and the same members afterwards.  Missing: that the output has the
data of the points it keeps, which is false (`C90_point_data_refuted`). -/
theorem C90_not_read_partial (lib : QELib) (cosn : Nat → K) (inp : Mesh P D) (d : Option (AMap D)) :
    (∀ sch f, cellUpdate sch lib cosn f (inp.withPointData d) = cellUpdate sch lib cosn f inp) ∧
    (∀ sch f, edgeUpdate sch lib cosn f (inp.withPointData d) = edgeUpdate sch lib cosn f inp) ∧
    (∀ sch f, iterUpdate sch lib cosn f (inp.withPointData d) = iterUpdate sch lib cosn f inp) ∧
    (∀ sch crit n c, condGenerate lib (condCellUpd sch lib cosn) crit n c (inp.withPointData d) =
      condGenerate lib (condCellUpd sch lib cosn) crit n c inp) ∧
    ∀ sch crit n c, condGenerate lib (condEdgeUpd sch lib cosn) crit n c (inp.withPointData d) =
      condGenerate lib (condEdgeUpd sch lib cosn) crit n c inp := by
  refine ⟨fun _ _ => cellUpdate_other .., fun _ _ => edgeUpdate_other .., fun sch f => ?_, fun _ _ _ _ => rfl, fun _ _ _ _ => rfl⟩
  unfold iterUpdate
  simp only [cellUpdate_other]

/-- C90 is false: whatever the mesh, the selection and the history, no output of any of the filters has data at any point. -/
theorem C90_point_data_refuted {lib : QELib} {cosn : Nat → K} {inp out : Mesh P D} :
    (∀ {sch f f'}, cellUpdate sch lib cosn f inp = (.ok out, f') → ∀ v, out.pointDataAt v = none) ∧
    (∀ {sch f f'}, edgeUpdate sch lib cosn f inp = (.ok out, f') → ∀ v, out.pointDataAt v = none) ∧
    (∀ {sch f f'}, iterUpdate sch lib cosn f inp = (.ok out, f') → ∀ v, out.pointDataAt v = none) ∧
    (∀ {sch crit n c c'}, condGenerate lib (condCellUpd sch lib cosn) crit n c inp = some (.ok out, c') →
      ∀ v, out.pointDataAt v = none) ∧
    ∀ {sch crit n c c'}, condGenerate lib (condEdgeUpd sch lib cosn) crit n c inp = some (.ok out, c') →
      ∀ v, out.pointDataAt v = none := by
  have key : out.pointData = none → ∀ v, out.pointDataAt v = none := by
    intro h v
    unfold Mesh.pointDataAt
    rw [h]; rfl
  exact ⟨fun h => key (cellUpdate_pd h), fun h => key (edgeUpdate_pd h), fun h => key (iterUpdate_pd h),
    fun h => key (condGenerate_pd (fun _ _ _ _ _ h2 => cellUpdate_pd h2) h),
    fun h => key (condGenerate_pd (fun _ _ _ _ _ h2 => edgeUpdate_pd h2) h)⟩

/-- `patchMesh` with data at its first two points -/
def markedPatch : Mesh Q3 Nat := patchMesh.withPointData (some [(0, 70), (1, 71)])

/-- each of the cell filters returns on it, keeps point 0 as a corner, and the data at point 0 is gone -/
example (sch : Scheme) : ∃ out f', cellUpdate sch someLib cos0 (usedFilt [1, 3]) markedPatch = (.ok out, f') ∧
    cellUpdate sch someLib cos0 (usedFilt [1, 3]) patchMesh = (.ok out, f') ∧
    markedPatch.pointDataAt 0 = some 70 ∧ out.pointDataAt 0 = none := by
  have key : ∀ sch : Scheme, (match (cellUpdate sch someLib cos0 (usedFilt [1, 3]) patchMesh).1 with
    | .ok _ => true
    | .error _ => false) = true := by
    intro sch
    cases sch <;> decide +kernel
  have hn := (C90_not_read_partial someLib cos0 patchMesh (some [(0, 70), (1, 71)])).1 sch (usedFilt [1, 3])
  rcases h : cellUpdate sch someLib cos0 (usedFilt [1, 3]) patchMesh with ⟨_ | out, f'⟩
  · have := key sch
    rw [h] at this; cases this
  · exact ⟨out, f', hn.trans h, rfl, by decide, C90_point_data_refuted.1 h 0⟩

/-- a conditional filter that has nothing to do drops it too -/
example (n : Nat) (c c' : Cond Filt CId) (out : Mesh Q3 Nat)
    (h : condGenerate someLib (condCellUpd .linear someLib cos0) (some (areaCompute shadow 16)) n c markedPatch = some (.ok out, c')) :
    out.pointDataAt 0 ≠ markedPatch.pointDataAt 0 := by
  rw [C90_point_data_refuted.2.2.2.1 h 0]
  decide

example : returned (condGenerate someLib (condCellUpd .linear someLib cos0) (some (areaCompute shadow 16)) 0
    ⟨Filt.new, []⟩ markedPatch) = true := by decide +kernel

end Verif
