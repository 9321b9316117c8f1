import Verif.Spec.TwoTypes
import Verif.Proofs.EdgeAlike
import Verif.Proofs.Superpose
/-
The filters with two mesh types and with one, side by side.
-/
namespace Verif
set_option linter.unusedSectionVars false
variable {K P Q D : Type} [Field K] [Zero P] [Add P] [SMul K P] [Zero Q] {cast : P → Q} {inp : Mesh P D}

theorem copyPointsTo_eq : copyPointsTo cast inp = copyPoints (inp.mapPoints cast) := by
  unfold copyPointsTo copyPoints Mesh.mapPoints
  simp only [List.length_map, List.foldl_map]

theorem sim_writePointsTo {val : PId → P → Except Fail P} {val' : PId → P → Except Fail Q} {l : List (PId × P)}
    (h : ∀ kp ∈ l, val' kp.1 kp.2 = (val kp.1 kp.2).map cast) :
    Sim (Alike (D := D) cast) Eq (writePoints val l) (writePointsTo val' l) := by
  unfold writePoints writePointsTo
  refine Sim.forEach fun kp hkp => ?_
  refine (Sim.lift (ResRel.map.2 (h kp hkp))).bind ?_
  rintro p _ rfl
  exact sim_setPoint _ _

theorem sim_addThreeTo {np : Edge → Except Fail P} (c : Option Cell) :
    Sim (Alike (D := D) cast) Eq (addThree inp np c) (addThree inp (castPoint cast np) c) :=
  sim_addThree inp (fun _ _ => rfl) c

theorem sim_sq3AddNewTo (c : Option Cell) :
    Sim (Alike (D := D) cast) Eq (sq3AddNew K inp c) (sq3AddNewTo K cast inp c) := by
  unfold sq3AddNew sq3AddNewTo
  refine (sim_requireTriangle c).bind ?_
  rintro t _ ⟨rfl, _⟩
  refine (Sim.lift (ResRel.of_eq rfl)).bind ?_
  rintro pa _ rfl
  refine (Sim.lift (ResRel.of_eq rfl)).bind ?_
  rintro pb _ rfl
  refine (Sim.lift (ResRel.of_eq rfl)).bind ?_
  rintro pc _ rfl
  refine sim_numberOfPoints.bind ?_
  rintro n _ rfl
  exact (sim_setPoint _ _).bind fun _ _ _ => sim_sq3Mark _ _ _

/-- the output after the points have been reserved -/
theorem reserve_alike (h0 : cast 0 = 0) (f : Filt) :
    Alike cast (⟨f, { (Mesh.empty : Mesh P D) with points := AMap.reserve [] inp.points.length 0 }⟩ : St P D)
      ⟨f, { (Mesh.empty : Mesh Q D) with points := AMap.reserve [] inp.points.length 0 }⟩ := by
  refine ⟨?_, rfl, rfl, rfl⟩
  unfold Mesh.mapPoints
  simp only [AMap.reserve_nil, mapDense, List.map_replicate, h0]
  rfl

theorem loopCopyTo_alike (h0 : cast 0 = 0) (cosn : Nat → K) (f : Filt) :
    ResRel Eq (loopCopy cosn inp ⟨f, Mesh.empty⟩).1 (loopCopyTo cast cosn inp ⟨f, Mesh.empty⟩).1 ∧
    AlikeStart cast (loopCopy cosn inp ⟨f, Mesh.empty⟩).2 (loopCopyTo cast cosn inp ⟨f, Mesh.empty⟩).2 := by
  have key : Sim (Alike (D := D) cast) Eq
      (fun s => if s.filt.uniform then writePoints (smoothingPoint cosn inp) inp.points s
        else (Prog.bind (Prog.lift (loopSmoothSet inp s.filt.cells)) fun set =>
          writePoints (fun id p => if set.contains id then smoothingPoint cosn inp id p else .ok p) inp.points) s)
      (fun s => if s.filt.uniform then writePointsTo (fun id p => (smoothingPoint cosn inp id p).map cast) inp.points s
        else (Prog.bind (Prog.lift (loopSmoothSet inp s.filt.cells)) fun set =>
          writePointsTo (fun id p => if set.contains id then (smoothingPoint cosn inp id p).map cast else .ok (cast p))
            inp.points) s) := by
    intro s s' hs
    simp only [hs.uniform, hs.cells]
    split
    · exact sim_writePointsTo (fun _ _ => rfl) s s' hs
    · refine (Sim.bind (Sim.lift (ResRel.of_eq rfl)) ?_) s s' hs
      rintro set _ rfl
      refine sim_writePointsTo fun kp _ => ?_
      split <;> rfl
  have := key _ _ (reserve_alike (inp := inp) h0 f)
  exact ⟨this.1, this.2.out, this.2.cells⟩

theorem writePoints_filt (val : PId → P → Except Fail P) (l : List (PId × P)) (s : St P D) :
    (writePoints val l s).2.filt = s.filt := by
  unfold writePoints
  induction l generalizing s with
  | nil => rfl
  | cons kp l ih =>
    unfold Prog.forEach Prog.bind Prog.lift
    cases val kp.1 kp.2 with
    | error e => rfl
    | ok p => exact ih _

theorem writePointsTo_filt (val : PId → P → Except Fail Q) (l : List (PId × P)) (s : St Q D) :
    (writePointsTo val l s).2.filt = s.filt := by
  unfold writePointsTo
  induction l generalizing s with
  | nil => rfl
  | cons kp l ih =>
    unfold Prog.forEach Prog.bind Prog.lift
    cases val kp.1 kp.2 with
    | error e => rfl
    | ok p => exact ih _

theorem loopEdgeCopyTo_same (h0 : cast 0 = 0) (cosn : Nat → K) (f : Filt) :
    ResRel Eq (loopEdgeCopy cosn inp ⟨f, Mesh.empty⟩).1 (loopEdgeCopyTo cast cosn inp ⟨f, Mesh.empty⟩).1 ∧
    (loopEdgeCopyTo cast cosn inp ⟨f, Mesh.empty⟩).2.out = (loopEdgeCopy cosn inp ⟨f, Mesh.empty⟩).2.out.mapPoints cast ∧
    SameEdges (loopEdgeCopy cosn inp ⟨f, Mesh.empty⟩).2.filt.edgeSel
      (loopEdgeCopyTo cast cosn inp ⟨f, Mesh.empty⟩).2.filt.edgeSel := by
  have := sim_writePointsTo (D := D) (cast := cast) (val := loopEdgeValue cosn inp f.edgeSel) (l := inp.points)
    (val' := fun id p => (loopEdgeValue cosn inp f.edgeSel id p).map cast) (fun _ _ => rfl) _ _
    (reserve_alike (inp := inp) h0 f)
  refine ⟨this.1, this.2.out, ?_⟩
  have e1 : (loopEdgeCopy cosn inp ⟨f, Mesh.empty⟩).2.filt = f := writePoints_filt _ _ _
  have e2 : (loopEdgeCopyTo cast cosn inp ⟨f, Mesh.empty⟩).2.filt = f :=
    writePointsTo_filt (fun id p => (loopEdgeValue cosn inp f.edgeSel id p).map cast) inp.points _
  rw [e1, e2]
  exact SameEdges.rfl

theorem cellUpdateTo_eq (h0 : cast 0 = 0) (sch : TwoTypeScheme) (lib : QELib) (cosn : Nat → K) (f : Filt) (inp : Mesh P D) :
    (cellUpdateTo sch lib cast cosn f inp).1 = (cellUpdate sch.toScheme lib cosn f inp).1.map (Mesh.mapPoints cast) ∧
    (cellUpdateTo sch lib cast cosn f inp).2.cells = (cellUpdate sch.toScheme lib cosn f inp).2.cells := by
  let _ : Add Q := ⟨fun a _ => a⟩
  let _ : SMul K Q := ⟨fun _ a => a⟩
  have hcopy : ResRel Eq (copyPoints inp ⟨f, Mesh.empty⟩).1 (copyPointsTo cast inp ⟨f, Mesh.empty⟩).1 ∧
      AlikeStart cast (copyPoints inp ⟨f, Mesh.empty⟩).2 (copyPointsTo cast inp ⟨f, Mesh.empty⟩).2 := by
    rw [copyPointsTo_eq]
    exact copyPoints_alike (φ := cast) (inp := inp) (f := f) (g := f) (Or.inl h0) rfl
  cases sch with
  | loop =>
    exact runFilter_alike lib (sim_generateOutputPoints inp (fun _ c _ => sim_addThreeTo c) (loopCopyTo_alike h0 cosn f))
      (sim_generateOutputCells inp)
  | butterfly =>
    exact runFilter_alike lib (sim_generateOutputPoints inp (fun _ c _ => sim_addThreeTo c) hcopy)
      (sim_generateOutputCells inp)
  | sqrt3 =>
    exact runFilter_alike lib (sim_generateOutputPoints inp (fun _ c _ => sim_sq3AddNewTo c) hcopy) (sim_sq3OutputCells inp)

theorem edgeUpdateTo_eq (h0 : cast 0 = 0) (sch : EdgeScheme) (lib : QELib) (cosn : Nat → K) (f : Filt) (inp : Mesh P D) :
    (edgeUpdateTo sch lib cast cosn f inp).1 = (edgeUpdate sch lib cosn f inp).1.map (Mesh.mapPoints cast) := by
  let _ : Add Q := ⟨fun a _ => a⟩
  let _ : SMul K Q := ⟨fun _ a => a⟩
  have hc := copyPoints_alike (φ := cast) (inp := inp) (f := f) (g := f) (Or.inl h0) rfl
  have hcopy : ResRel Eq (copyPoints inp ⟨f, Mesh.empty⟩).1 (copyPointsTo cast inp ⟨f, Mesh.empty⟩).1 ∧
      (copyPointsTo cast inp ⟨f, Mesh.empty⟩).2.out = (copyPoints inp ⟨f, Mesh.empty⟩).2.out.mapPoints cast ∧
      SameEdges (copyPoints inp ⟨f, Mesh.empty⟩).2.filt.edgeSel (copyPointsTo cast inp ⟨f, Mesh.empty⟩).2.filt.edgeSel := by
    rw [copyPointsTo_eq]
    exact ⟨hc.1, hc.2.out, SameEdges.rfl⟩
  cases sch with
  | linear => exact runFilter_alikeE lib inp (sim_edgeOutputPoints inp hcopy fun e _ => rfl)
  | loop => exact runFilter_alikeE lib inp (sim_edgeOutputPoints inp (loopEdgeCopyTo_same h0 cosn f) fun e _ => rfl)
  | butterfly => exact runFilter_alikeE lib inp (sim_edgeOutputPoints inp hcopy fun e _ => rfl)

end Verif
