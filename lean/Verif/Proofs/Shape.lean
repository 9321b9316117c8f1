import Verif.Proofs.EdgeAlike
import Verif.Proofs.Iterative
import Verif.Spec.Shape
import Mathlib.Algebra.Module.PUnit
/-
Runs on a mesh and on its shape.
-/
namespace Verif
set_option linter.unusedSectionVars false
variable {K P D : Type} [Field K] [Zero P] [Add P] [SMul K P]

/-- the arithmetic on shapes -/
def noCos : Nat → ℚ := fun _ => 0

theorem bind_forget {α β α' β' : Type} {φ : α → α'} {ψ : β → β'} {x : Except Fail α} {y : Except Fail α'} {k : α → Except Fail β}
    {k' : α' → Except Fail β'} (h : y = x.map φ) (hk : ∀ a, k' (φ a) = (k a).map ψ) :
    (y >>= k') = (x >>= k).map ψ := by
  subst h
  cases x with
  | error e => rfl
  | ok a => exact hk a

/-- values that are forgotten -/
theorem ok_forget (x : P) (y : Unit) : (.ok y : Except Fail Unit) = (Except.ok x : Except Fail P).map (fun _ => ()) := rfl

section stencils
variable (inp : Mesh P D)

theorem getPoint_shape (v : PId) : inp.shape.getPoint v = (inp.getPoint v).map fun _ => () := getPoint_map inp v

theorem destOrZero_shape (e : Option Edge) : destOrZero inp.shape e = (destOrZero inp e).map fun _ => () := by
  cases e with
  | none => rfl
  | some e => exact getPoint_shape inp e.2

theorem linearPoint_shape (e : Edge) : linearPoint ℚ inp.shape e = (linearPoint K inp e).map fun _ => () :=
  bind_forget (getPoint_shape inp _) fun _ => bind_forget (getPoint_shape inp _) fun _ => rfl

theorem loopPoint_shape (e : Edge) : loopPoint ℚ inp.shape e = (loopPoint K inp e).map fun _ => () := by
  unfold loopPoint
  have h1 : inp.shape.isInternal e = inp.isInternal e := rfl
  have h2 : inp.shape.isAtBorder e = inp.isAtBorder e := rfl
  rw [h1, h2]
  split
  · exact bind_forget (getPoint_shape inp _) fun _ => bind_forget (getPoint_shape inp _) fun _ =>
      bind_forget (destOrZero_shape inp _) fun _ => bind_forget (destOrZero_shape inp _) fun _ => rfl
  split
  · exact bind_forget (getPoint_shape inp _) fun _ => bind_forget (getPoint_shape inp _) fun _ => rfl
  · rfl

theorem butterflyPoint_shape (e : Edge) : butterflyPoint ℚ inp.shape e = (butterflyPoint K inp e).map fun _ => () :=
  bind_forget (getPoint_shape inp _) fun _ => bind_forget (getPoint_shape inp _) fun _ =>
    bind_forget (destOrZero_shape inp _) fun _ => bind_forget (destOrZero_shape inp _) fun _ =>
    bind_forget (destOrZero_shape inp _) fun _ => bind_forget (destOrZero_shape inp _) fun _ =>
    bind_forget (destOrZero_shape inp _) fun _ => bind_forget (destOrZero_shape inp _) fun _ => rfl

theorem sumFrom_shape (es : List Edge) (acc : P) :
    sumFrom inp.shape () es = (sumFrom inp acc es).map fun _ => () := by
  induction es generalizing acc with
  | nil => rfl
  | cons e es ih => exact bind_forget (getPoint_shape inp _) fun p => ih _

theorem ringAt_shape (e : Edge) : ringAt inp.shape e = (ringAt inp e).map id := by
  rw [show ringAt inp.shape e = ringAt inp e from ringAt_map e]
  cases ringAt inp e <;> rfl

theorem smoothingPoint_shape (cosn : Nat → K) (v : PId) (p : P) :
    smoothingPoint noCos inp.shape v () = (smoothingPoint cosn inp v p).map fun _ => () := by
  unfold smoothingPoint
  have h1 : inp.shape.ring = inp.ring := rfl
  rw [h1]
  cases inp.ring.pointEdge v with
  | none => rfl
  | some e =>
    refine bind_forget (ringAt_shape inp e) fun r => ?_
    refine bind_forget (sumFrom_shape inp _ _) fun o => ?_
    refine bind_forget (sumFrom_shape inp _ _) fun b => ?_
    have h2 : inp.shape.isAtBorder = inp.isAtBorder := rfl
    rw [h2]
    simp only [id]
    split <;> rfl

theorem averageOrigin_shape (cosn : Nat → K) (e : Edge) :
    averageOrigin noCos inp.shape e = (averageOrigin cosn inp e).map fun _ => () := by
  unfold averageOrigin
  refine bind_forget (getPoint_shape inp _) fun p => ?_
  refine bind_forget (ringAt_shape inp e) fun r => ?_
  refine bind_forget (sumFrom_shape inp _ _) fun o => ?_
  refine bind_forget (sumFrom_shape inp _ _) fun b => ?_
  have h2 : inp.shape.isAtBorder = inp.isAtBorder := rfl
  rw [h2]
  simp only [id]
  split <;> rfl

end stencils

theorem loopCopy_shape (cosn : Nat → K) (inp : Mesh P D) (f : Filt) :
    ResRel Eq (loopCopy cosn inp ⟨f, Mesh.empty⟩).1 (loopCopy noCos inp.shape ⟨f, Mesh.empty⟩).1 ∧
    Alike (fun _ => ()) (loopCopy cosn inp ⟨f, Mesh.empty⟩).2 (loopCopy noCos inp.shape ⟨f, Mesh.empty⟩).2 := by
  rw [loopCopy_eq, loopCopy_eq]
  have hl : inp.shape.points.length = inp.points.length := by simp [Mesh.shape, Mesh.mapPoints]
  have h0 : Alike (fun _ : P => ()) (⟨f, { (Mesh.empty : Mesh P D) with
        points := (Mesh.empty : Mesh P D).points.reserve inp.points.length 0 }⟩ : St P D)
      ⟨f, { (Mesh.empty : Mesh Unit D) with
        points := (Mesh.empty : Mesh Unit D).points.reserve inp.shape.points.length 0 }⟩ := by
    refine ⟨?_, rfl, rfl, rfl⟩
    have e1 : (Mesh.empty : Mesh Unit D).points = [] := rfl
    have e2 : (Mesh.empty : Mesh P D).points = [] := rfl
    unfold Mesh.mapPoints
    have e3 := dense_replicate_map (φ := fun _ : P => ()) inp.points.length 0
    simp only [hl, e1, e2, AMap.reserve_nil, e3]
    rfl
  split
  · exact sim_writePoints (φ := fun _ => ()) (fun kp _ => smoothingPoint_shape inp cosn _ _) _ _ h0
  · have : loopSmoothSet inp.shape f.cells = loopSmoothSet inp f.cells := loopSmoothSet_map inp _
    simp only [this]
    refine (Sim.lift (R := Alike (D := D) (fun _ : P => ())) (V := Eq) (ResRel.of_eq rfl)).bind ?_ _ _ h0
    rintro set _ rfl
    refine sim_writePoints (φ := fun _ => ()) fun kp _ => ?_
    split
    · exact smoothingPoint_shape inp cosn _ _
    · rfl

/-- a run on a mesh and on its shape -/
theorem cellUpdate_shape (sch : Scheme) (lib : QELib) (cosn : Nat → K) (f : Filt) (inp : Mesh P D) :
    (cellUpdate sch lib noCos f inp.shape).1 = (cellUpdate sch lib cosn f inp).1.map Mesh.shape ∧
    (cellUpdate sch lib noCos f inp.shape).2.cells = (cellUpdate sch lib cosn f inp).2.cells := by
  have hcopy := copyPoints_alike (φ := fun _ : P => ()) (inp := inp) (f := f) (g := f) (Or.inl rfl) rfl
  unfold cellUpdate cellGenerate
  cases sch with
  | linear =>
    exact runFilter_alike lib (f := f) (g := f)
      (sim_generateOutputPoints inp (fun _ c _ => sim_linearAddNew (K := K) (K' := ℚ) (φ := fun _ => ()) (fun _ _ => rfl) inp c)
        hcopy) (sim_generateOutputCells inp)
  | loop =>
    have hl := loopCopy_shape cosn inp f
    exact runFilter_alike lib (f := f) (g := f)
      (sim_generateOutputPoints inp (fun _ c _ => sim_addThree (φ := fun _ => ()) inp (np := loopPoint K inp)
        (np' := loopPoint ℚ inp.shape) (fun _ _ => loopPoint_shape inp _) c) ⟨hl.1, ⟨hl.2.out, hl.2.cells⟩⟩)
      (sim_generateOutputCells inp)
  | butterfly =>
    exact runFilter_alike lib (f := f) (g := f)
      (sim_generateOutputPoints inp (fun _ c _ => sim_addThree (φ := fun _ => ()) inp (np := butterflyPoint K inp)
        (np' := butterflyPoint ℚ inp.shape) (fun _ _ => butterflyPoint_shape inp _) c) hcopy)
      (sim_generateOutputCells inp)
  | sqrt3 =>
    exact runFilter_alike lib (f := f) (g := f)
      (sim_generateOutputPoints inp (fun _ c _ => sim_sq3AddNew (K := K) (K' := ℚ) (φ := fun _ => ()) (fun _ _ _ => rfl) inp c)
        hcopy) (sim_sq3OutputCells inp)

theorem loopEdgeValue_shape (cosn : Nat → K) (inp : Mesh P D) (l : List (Option Edge)) (v : PId) (p : P) :
    loopEdgeValue noCos inp.shape l v () = (loopEdgeValue cosn inp l v p).map fun _ => () := by
  unfold loopEdgeValue
  have hr : inp.shape.ring = inp.ring := rfl
  have he : inp.shape.edges = inp.edges := rfl
  rw [hr, he]
  cases inp.ring.pointEdge v with
  | none => rfl
  | some e =>
    have hw : loopEdgeWalk inp.shape l e (2 * inp.edges.length + 1) e (inp.ring.onext e) =
        (loopEdgeWalk inp l e (2 * inp.edges.length + 1) e (inp.ring.onext e)).map id := by
      rw [show loopEdgeWalk inp.shape l e (2 * inp.edges.length + 1) e (inp.ring.onext e) = _ from
        loopEdgeWalk_same SameEdges.rfl _ _ _ _]
      cases loopEdgeWalk inp l e (2 * inp.edges.length + 1) e (inp.ring.onext e) <;> rfl
    refine bind_forget hw fun b => ?_
    cases b
    · exact averageOrigin_shape inp cosn e
    · rfl

theorem loopEdgeCopy_shape (cosn : Nat → K) (inp : Mesh P D) (f : Filt) :
    ResRel Eq (loopEdgeCopy cosn inp ⟨f, Mesh.empty⟩).1 (loopEdgeCopy noCos inp.shape ⟨f, Mesh.empty⟩).1 ∧
    (loopEdgeCopy noCos inp.shape ⟨f, Mesh.empty⟩).2.out =
      (loopEdgeCopy cosn inp ⟨f, Mesh.empty⟩).2.out.mapPoints (fun _ => ()) ∧
    SameEdges (loopEdgeCopy cosn inp ⟨f, Mesh.empty⟩).2.filt.edgeSel
      (loopEdgeCopy noCos inp.shape ⟨f, Mesh.empty⟩).2.filt.edgeSel := by
  have hl : inp.shape.points.length = inp.points.length := by simp [Mesh.shape, Mesh.mapPoints]
  have e3 := dense_replicate_map (φ := fun _ : P => ()) inp.points.length 0
  have := writePoints_same (D := D) (φ := fun _ : P => ()) (val := loopEdgeValue cosn inp f.edgeSel)
    (val' := loopEdgeValue noCos inp.shape f.edgeSel) inp.points (fun kp _ => loopEdgeValue_shape cosn inp _ _ _)
    ⟨f, { (Mesh.empty : Mesh P D) with points := AMap.reserve [] inp.points.length 0 }⟩
    ⟨f, { (Mesh.empty : Mesh Unit D) with points := AMap.reserve [] inp.shape.points.length 0 }⟩ (by
      unfold Mesh.mapPoints
      simp only [hl, AMap.reserve_nil, e3]
      rfl)
  refine ⟨this.1, this.2.1, ?_⟩
  have e1 : (loopEdgeCopy cosn inp ⟨f, Mesh.empty⟩).2.filt = f := this.2.2.1
  have e2 : (loopEdgeCopy noCos inp.shape ⟨f, Mesh.empty⟩).2.filt = f := this.2.2.2
  rw [e1, e2]
  exact SameEdges.rfl

theorem edgeUpdate_shape (sch : EdgeScheme) (lib : QELib) (cosn : Nat → K) (f : Filt) (inp : Mesh P D) :
    (edgeUpdate sch lib noCos f inp.shape).1 = (edgeUpdate sch lib cosn f inp).1.map Mesh.shape := by
  have hc := copyPoints_alike (φ := fun _ : P => ()) (inp := inp) (f := f) (g := f) (Or.inl rfl) rfl
  have hcopy : ResRel Eq (copyPoints inp ⟨f, Mesh.empty⟩).1 (copyPoints inp.shape ⟨f, Mesh.empty⟩).1 ∧
      (copyPoints inp.shape ⟨f, Mesh.empty⟩).2.out = (copyPoints inp ⟨f, Mesh.empty⟩).2.out.mapPoints (fun _ => ()) ∧
      SameEdges (copyPoints inp ⟨f, Mesh.empty⟩).2.filt.edgeSel (copyPoints inp.shape ⟨f, Mesh.empty⟩).2.filt.edgeSel :=
    ⟨hc.1, hc.2.out, SameEdges.rfl⟩
  unfold edgeUpdate edgeGenerate
  cases sch with
  | linear =>
    exact runFilter_alikeE (φ := fun _ : P => ()) lib inp (f := f) (g := f)
      (sim_edgeOutputPoints inp (np := linearPoint K inp) (np' := linearPoint ℚ inp.shape) hcopy
        (fun e _ => linearPoint_shape inp e))
  | loop =>
    exact runFilter_alikeE (φ := fun _ : P => ()) lib inp (f := f) (g := f)
      (sim_edgeOutputPoints inp (np := loopPoint K inp) (np' := loopPoint ℚ inp.shape) (loopEdgeCopy_shape cosn inp f)
        (fun e _ => loopPoint_shape inp e))
  | butterfly =>
    exact runFilter_alikeE (φ := fun _ : P => ()) lib inp (f := f) (g := f)
      (sim_edgeOutputPoints inp (np := butterflyPoint K inp) (np' := butterflyPoint ℚ inp.shape) hcopy
        (fun e _ => butterflyPoint_shape inp e))

theorem oneLevel_shape (sch : Scheme) (lib : QELib) (cosn : Nat → K) (x : Mesh P D × List CId) :
    oneLevel sch lib noCos (x.1.shape, x.2) = (oneLevel sch lib cosn x).map fun y => (y.1.shape, y.2) := by
  obtain ⟨h1, h2⟩ := cellUpdate_shape sch lib cosn (Filt.new.setCells x.2) x.1
  unfold oneLevel
  rcases hu : cellUpdate sch lib cosn (Filt.new.setCells x.2) x.1 with ⟨r, g⟩
  rcases hu' : cellUpdate sch lib noCos (Filt.new.setCells x.2) x.1.shape with ⟨r', g'⟩
  rw [hu, hu'] at h1 h2
  simp only at h1 h2
  subst h1
  cases r with
  | error e => rfl
  | ok m => simp only [Except.map, h2]

theorem manyLevels_shape (sch : Scheme) (lib : QELib) (cosn : Nat → K) (n : Nat) (x : Mesh P D × List CId) :
    manyLevels sch lib noCos n (x.1.shape, x.2) = (manyLevels sch lib cosn n x).map fun y => (y.1.shape, y.2) := by
  induction n generalizing x with
  | zero => rfl
  | succ n ih => exact bind_forget (oneLevel_shape sch lib cosn x) fun y => ih y

theorem iterUpdate_shape (sch : Scheme) (lib : QELib) (cosn : Nat → K) (f : Iter) (inp : Mesh P D) :
    (iterUpdate sch lib noCos f inp.shape).1 = (iterUpdate sch lib cosn f inp).1.map Mesh.shape := by
  rw [iterUpdate_eq, iterUpdate_eq, show (inp.shape, f.cells) = ((inp, f.cells).1.shape, (inp, f.cells).2) from rfl,
    manyLevels_shape sch lib cosn]
  cases manyLevels sch lib cosn (levelsOf f.levels) (inp, f.cells) <;> rfl

end Verif
