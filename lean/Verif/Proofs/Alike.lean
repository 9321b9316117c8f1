import Verif.Proofs.Sim
import Verif.Proofs.Schemes
/-
The four cell filters on a mesh and on the same mesh with moved points.
-/
namespace Verif
set_option linter.unusedSectionVars false
variable {K K' P P' D : Type} [Field K] [Field K'] [Zero P] [Add P] [SMul K P] [Zero P'] [Add P'] [SMul K' P']
variable {φ : P → P'}

theorem sim_linearAddNew (hmid : ∀ a b, φ (midPoint K a b) = midPoint K' (φ a) (φ b)) (inp : Mesh P D)
    (c : Option Cell) :
    Sim (Alike (D := D) φ) Eq (linearAddNew K inp c) (linearAddNew K' (inp.mapPoints φ) c) := by
  unfold linearAddNew
  refine (sim_requireTriangle c).bind ?_
  rintro t _ ⟨rfl, _⟩
  refine sim_numberOfPoints.bind ?_
  rintro n _ rfl
  refine (sim_getOutPoint _).bind ?_
  rintro pa _ rfl
  refine (sim_getOutPoint _).bind ?_
  rintro pb _ rfl
  refine (sim_getOutPoint _).bind ?_
  rintro pc _ rfl
  refine (sim_addEdgePoint inp (fun _ _ => by simp [Except.map, hmid]) n).bind ?_
  rintro n _ rfl
  refine (sim_addEdgePoint inp (fun _ _ => by simp [Except.map, hmid]) n).bind ?_
  rintro n _ rfl
  exact (sim_addEdgePoint inp (fun _ _ => by simp [Except.map, hmid]) n).bind fun _ _ _ => Sim.pure rfl

theorem sim_sq3AddNew (hmid : ∀ a b c, φ ((1 / 3 : K) • (0 + a + b + c)) = (1 / 3 : K') • (0 + φ a + φ b + φ c))
    (inp : Mesh P D) (c : Option Cell) :
    Sim (Alike (D := D) φ) Eq (sq3AddNew K inp c) (sq3AddNew K' (inp.mapPoints φ) c) := by
  unfold sq3AddNew
  refine (sim_requireTriangle c).bind ?_
  rintro t _ ⟨rfl, _⟩
  refine (Sim.lift (ResRel.map.2 (getPoint_map _ _))).bind ?_
  rintro pa _ rfl
  refine (Sim.lift (ResRel.map.2 (getPoint_map _ _))).bind ?_
  rintro pb _ rfl
  refine (Sim.lift (ResRel.map.2 (getPoint_map _ _))).bind ?_
  rintro pc _ rfl
  refine sim_numberOfPoints.bind ?_
  rintro n _ rfl
  rw [← hmid]
  exact (sim_setPoint _ _).bind fun _ _ _ => sim_sq3Mark _ _ _

/-- the copy of the base class -/
theorem copyPoints_alike {inp : Mesh P D} (h : φ 0 = 0 ∨ inp.points.map Prod.fst = List.range inp.points.length)
    {f g : Filt} (hc : g.cells = f.cells) :
    ResRel Eq (copyPoints inp ⟨f, Mesh.empty⟩).1 (copyPoints (inp.mapPoints φ) ⟨g, Mesh.empty⟩).1 ∧
    AlikeStart φ (copyPoints inp ⟨f, Mesh.empty⟩).2 (copyPoints (inp.mapPoints φ) ⟨g, Mesh.empty⟩).2 := by
  refine ⟨rfl, ⟨?_, hc⟩⟩
  unfold copyPoints modifyOut
  have key : (inp.mapPoints φ).points.foldl (fun m kp => m.set kp.1 kp.2)
      (AMap.reserve (Mesh.empty : Mesh P' D).points (inp.mapPoints φ).points.length 0) =
      (inp.points.foldl (fun m kp => m.set kp.1 kp.2)
        (AMap.reserve (Mesh.empty : Mesh P D).points inp.points.length 0)).map fun kp => (kp.1, φ kp.2) := by
    have hlen : (inp.mapPoints φ).points.length = inp.points.length := by simp [Mesh.mapPoints]
    have e1 : (Mesh.empty : Mesh P' D).points = [] := rfl
    have e2 : (Mesh.empty : Mesh P D).points = [] := rfl
    rw [hlen, e1, e2, AMap.reserve_nil, AMap.reserve_nil]
    rcases h with h | h
    · have hfold : ∀ (l : AMap P) (m : AMap P), (l.map fun kp => (kp.1, φ kp.2)).foldl (fun (m : AMap P') kp => m.set kp.1 kp.2)
          (m.map fun kp => (kp.1, φ kp.2)) = (l.foldl (fun m kp => m.set kp.1 kp.2) m).map fun kp => (kp.1, φ kp.2) := by
        intro l
        induction l with
        | nil => intro m; rfl
        | cons x l ih => intro m; simp only [List.map_cons, List.foldl_cons, AMap.set_map, ih]
      have hrep : AMap.dense (List.replicate inp.points.length (0 : P')) =
          (AMap.dense (List.replicate inp.points.length (0 : P))).map fun kp => (kp.1, φ kp.2) := by
        unfold AMap.dense
        generalize inp.points.length = n
        generalize 0 = i
        induction n generalizing i with
        | zero => rfl
        | succ n ih => simp only [List.replicate_succ, AMap.denseFrom, List.map_cons, h, ih]
      rw [hrep]
      exact hfold inp.points _
    · have hd := AMap.eq_dense _ h
      have hdm : ∀ l : List P, (AMap.dense l).map (fun kp => (kp.1, φ kp.2)) = AMap.dense (l.map φ) := by
        intro l
        unfold AMap.dense
        generalize 0 = i
        induction l generalizing i with
        | nil => rfl
        | cons x l ih => simp only [AMap.denseFrom, List.map_cons, ih]
      have hp' : (inp.mapPoints φ).points = AMap.dense ((inp.points.map Prod.snd).map φ) := by
        change inp.points.map (fun kp => (kp.1, φ kp.2)) = _
        conv_lhs => rw [hd]
        exact hdm _
      rw [hp', AMap.foldl_set_dense _ _ (by simp)]
      conv_rhs => rw [hd]
      simp only [AMap.length_dense]
      rw [AMap.foldl_set_dense _ _ (by simp), hdm]
  simp only [key]
  rfl

/-- `writePoints` on related states -/
theorem sim_writePoints {val : PId → P → Except Fail P} {val' : PId → P' → Except Fail P'} {l : List (PId × P)}
    (h : ∀ kp ∈ l, val' kp.1 (φ kp.2) = (val kp.1 kp.2).map φ) :
    Sim (Alike (D := D) φ) Eq (writePoints val l) (writePoints val' (l.map fun kp => (kp.1, φ kp.2))) := by
  unfold writePoints
  refine Sim.forEachMap fun kp hkp => ?_
  refine (Sim.lift (ResRel.map.2 (h kp hkp))).bind ?_
  rintro p _ rfl
  exact sim_setPoint _ _

theorem loopSmoothSet_map (inp : Mesh P D) (l : List CId) : loopSmoothSet (inp.mapPoints φ) l = loopSmoothSet inp l := by
  induction l with
  | nil => rfl
  | cons id l ih =>
    unfold loopSmoothSet
    have : (inp.mapPoints φ).cells = inp.cells := rfl
    rw [this, ih]

theorem mapPoints_id (inp : Mesh P D) : inp.mapPoints (id : P → P) = inp := by
  unfold Mesh.mapPoints
  simp

/-- the run depends on the object only through its list of cells (Linear, Butterfly, SquareThree), on any mesh -/
theorem cellUpdate_history {sch : Scheme} (hs : sch ≠ .loop) (lib : QELib) (cosn : Nat → K) (inp : Mesh P D)
    {f g : Filt} (hc : g.cells = f.cells) :
    (cellUpdate sch lib cosn g inp).1 = (cellUpdate sch lib cosn f inp).1 ∧
    (cellUpdate sch lib cosn g inp).2.cells = (cellUpdate sch lib cosn f inp).2.cells := by
  have hid : inp.mapPoints (id : P → P) = inp := mapPoints_id inp
  have hmap : ∀ r : Except Fail (Mesh P D), r.map (Mesh.mapPoints id) = r := by
    intro r
    cases r with
    | error e => rfl
    | ok m => exact congrArg _ (mapPoints_id m)
  have hcopy := copyPoints_alike (φ := (id : P → P)) (inp := inp) (Or.inl rfl) hc
  unfold cellUpdate cellGenerate
  cases sch with
  | loop => exact absurd rfl hs
  | linear =>
    have := runFilter_alike lib (f := f) (g := g)
      (sim_generateOutputPoints inp (fun _ c _ => sim_linearAddNew (K := K) (φ := id) (fun _ _ => rfl) inp c) hcopy)
      (sim_generateOutputCells inp)
    rw [hid, hmap] at this
    exact this
  | butterfly =>
    have := runFilter_alike lib (f := f) (g := g)
      (sim_generateOutputPoints inp (fun _ c _ => sim_addThree (φ := id) inp (np := butterflyPoint K inp)
        (np' := butterflyPoint K inp) (fun _ _ => by cases butterflyPoint K inp _ <;> rfl) c) hcopy)
      (sim_generateOutputCells inp)
    rw [hid, hmap] at this
    exact this
  | sqrt3 =>
    have := runFilter_alike lib (f := f) (g := g)
      (sim_generateOutputPoints inp (fun _ c _ => sim_sq3AddNew (K := K) (φ := id) (fun _ _ _ => rfl) inp c) hcopy)
      (sim_sq3OutputCells inp)
    rw [hid, hmap] at this
    exact this

theorem loopCopy_eq (cosn : Nat → K) (inp : Mesh P D) (s : St P D) :
    loopCopy cosn inp s =
      if s.filt.uniform = true then
        writePoints (smoothingPoint cosn inp) inp.points
          ⟨s.filt, { s.out with points := s.out.points.reserve inp.points.length 0 }⟩
      else Prog.bind (Prog.lift (loopSmoothSet inp s.filt.cells)) (fun set =>
        writePoints (fun id p => if set.contains id then smoothingPoint cosn inp id p else .ok p) inp.points)
          ⟨s.filt, { s.out with points := s.out.points.reserve inp.points.length 0 }⟩ := rfl

/-- The run of the Loop filter depends on its list of cells and on the flag `m_Uniform` that the previous run left. -/
theorem cellUpdate_history_loop (lib : QELib) (cosn : Nat → K) (inp : Mesh P D)
    {f g : Filt} (hc : g.cells = f.cells) (hu : g.uniform = f.uniform) :
    (cellUpdate .loop lib cosn g inp).1 = (cellUpdate .loop lib cosn f inp).1 ∧
    (cellUpdate .loop lib cosn g inp).2.cells = (cellUpdate .loop lib cosn f inp).2.cells := by
  have hid : inp.mapPoints (id : P → P) = inp := mapPoints_id inp
  have hmap : ∀ r : Except Fail (Mesh P D), r.map (Mesh.mapPoints id) = r := by
    intro r
    cases r with
    | error e => rfl
    | ok m => exact congrArg _ (mapPoints_id m)
  -- the copy does not read `m_EdgesPointIdentifier`: compare with equal ones
  have key : ∀ (s s' : St P D), s'.out = s.out → s'.filt.cells = s.filt.cells → s'.filt.uniform = s.filt.uniform →
      ResRel Eq (loopCopy cosn inp s).1 (loopCopy cosn inp s').1 ∧
      AlikeStart (id : P → P) (loopCopy cosn inp s).2 (loopCopy cosn inp s').2 := by
    have hw : ∀ (val : PId → P → Except Fail P) (l : List (PId × P)) (s s' : St P D),
        s'.out = s.out → s'.filt.cells = s.filt.cells →
        ResRel Eq (writePoints val l s).1 (writePoints val l s').1 ∧
        AlikeStart (id : P → P) (writePoints val l s).2 (writePoints val l s').2 := by
      intro val l
      induction l with
      | nil => intro s s' h1 h2; exact ⟨rfl, ⟨h1.trans (mapPoints_id _).symm, h2⟩⟩
      | cons kp l ih =>
        intro s s' h1 h2
        unfold writePoints Prog.forEach Prog.bind Prog.lift
        cases hv : val kp.1 kp.2 with
        | error e => exact ⟨rfl, ⟨h1.trans (mapPoints_id _).symm, h2⟩⟩
        | ok p => exact ih _ _ (by simp only [modifyOut, h1]) h2
    intro s s' h1 h2 h3
    rw [loopCopy_eq, loopCopy_eq, h1, h2, h3]
    split
    · exact hw _ _ _ _ rfl h2
    · unfold Prog.bind Prog.lift
      cases loopSmoothSet inp s.filt.cells with
      | error e => exact ⟨rfl, ⟨(mapPoints_id _).symm, h2⟩⟩
      | ok l => exact hw _ _ _ _ rfl h2
  unfold cellUpdate cellGenerate
  have := runFilter_alike lib (f := f) (g := g)
    (sim_generateOutputPoints inp (fun _ c _ => sim_addThree (φ := id) inp (np := loopPoint K inp)
      (np' := loopPoint K inp) (fun _ _ => by cases loopPoint K inp _ <;> rfl) c)
      (key ⟨f, Mesh.empty⟩ ⟨g, Mesh.empty⟩ rfl hc hu))
    (sim_generateOutputCells inp)
  rw [hid, hmap] at this
  exact this

end Verif
