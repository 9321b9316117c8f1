import Verif.Spec.Data
import Verif.Proofs.Sim
import Verif.Model.TwoTypes
import Verif.Model.Drivers
/-
Runs on two meshes that differ in their data only.
-/
namespace Verif
set_option linter.unusedSectionVars false
variable {K P Q D E : Type}

theorem noData_mapData (g : D → E) (m : Mesh P D) : (m.mapData g).noData = m.noData := rfl

-- what a mesh is asked for does not depend on its data
section read
variable [Field K] [Zero P] [Add P] [SMul K P] (m : Mesh P D)

theorem ringFrom_noData (start : Edge) (n : Nat) (cur : Edge) : ringFrom m.noData start n cur = ringFrom m start n cur := by
  induction n generalizing cur with
  | zero => rfl
  | succ n ih =>
    unfold ringFrom
    simp only [ih]
    rfl

theorem sumFrom_noData (acc : P) (l : List Edge) : sumFrom m.noData acc l = sumFrom m acc l := by
  induction l generalizing acc with
  | nil => rfl
  | cons e l ih =>
    unfold sumFrom
    simp only [ih]
    rfl

theorem smoothingPoint_noData (cosn : Nat → K) : smoothingPoint cosn m.noData = smoothingPoint cosn m := by
  funext v p
  unfold smoothingPoint ringAt sumDest
  simp only [ringFrom_noData, sumFrom_noData]
  rfl

theorem loopSmoothSet_noData (l : List CId) : loopSmoothSet m.noData l = loopSmoothSet m l := by
  induction l with
  | nil => rfl
  | cons k l ih =>
    unfold loopSmoothSet
    simp only [ih]
    rfl

theorem loopEdgeWalk_noData (sel : List (Option Edge)) (start : Edge) (n : Nat) (q : Edge) (q' : Option Edge) :
    loopEdgeWalk m.noData sel start n q q' = loopEdgeWalk m sel start n q q' := by
  induction n generalizing q q' with
  | zero => rfl
  | succ n ih =>
    unfold loopEdgeWalk
    simp only [ih]
    rfl

theorem loopEdgeValue_noData (cosn : Nat → K) (sel : List (Option Edge)) :
    loopEdgeValue cosn m.noData sel = loopEdgeValue cosn m sel := by
  funext v p
  unfold loopEdgeValue averageOrigin ringAt sumDest
  simp only [ringFrom_noData, sumFrom_noData, loopEdgeWalk_noData]
  rfl

theorem linearPoint_noData : linearPoint K m.noData = linearPoint K m := rfl
theorem loopPoint_noData : loopPoint K m.noData = loopPoint K m := rfl
theorem butterflyPoint_noData : butterflyPoint K m.noData = butterflyPoint K m := rfl

end read

theorem ensureEdge_noData (m : Mesh P D) (e : Edge) :
    (m.ensureEdge e).1.noData = (m.noData.ensureEdge e).1 ∧ (m.ensureEdge e).2 = (m.noData.ensureEdge e).2 ∧
    (m.ensureEdge e).1.cellData = m.cellData ∧ (m.ensureEdge e).1.pointData = m.pointData := by
  have h1 : m.noData.hasEdge e = m.hasEdge e := rfl
  have h2 : ∀ v, m.noData.closedAt v = m.closedAt v := fun _ => rfl
  unfold Mesh.ensureEdge
  rw [h1, h2, h2]
  split
  · exact ⟨rfl, rfl, rfl, rfl⟩
  · split <;> exact ⟨rfl, rfl, rfl, rfl⟩

theorem addFaceTriangle_noData (m : Mesh P D) (a b c : PId) :
    (m.addFaceTriangle a b c).1.noData = (m.noData.addFaceTriangle a b c).1 ∧
    (m.addFaceTriangle a b c).2 = (m.noData.addFaceTriangle a b c).2 ∧
    (m.addFaceTriangle a b c).1.cellData = m.cellData ∧ (m.addFaceTriangle a b c).1.pointData = m.pointData := by
  have hl : ∀ e, m.noData.leftSet e = m.leftSet e := fun _ => rfl
  have hp : m.noData.points = m.points := rfl
  unfold Mesh.addFaceTriangle
  rw [hl, hl, hl, hp]
  split
  · exact ⟨rfl, rfl, rfl, rfl⟩
  split
  · exact ⟨rfl, rfl, rfl, rfl⟩
  split
  · exact ⟨rfl, rfl, rfl, rfl⟩
  obtain ⟨a1, a2, a3, a4⟩ := ensureEdge_noData m (a, b)
  rcases he : m.ensureEdge (a, b) with ⟨m1, b1⟩
  rcases he' : m.noData.ensureEdge (a, b) with ⟨m1', b1'⟩
  rw [he, he'] at a1 a2
  rw [he] at a3 a4
  simp only at a1 a2 a3 a4
  subst a1 a2
  cases b1
  · exact ⟨rfl, rfl, a3, a4⟩
  obtain ⟨c1, c2, c3, c4⟩ := ensureEdge_noData m1 (b, c)
  rcases hf : m1.ensureEdge (b, c) with ⟨m2, b2⟩
  rcases hf' : m1.noData.ensureEdge (b, c) with ⟨m2', b2'⟩
  rw [hf, hf'] at c1 c2
  rw [hf] at c3 c4
  simp only at c1 c2 c3 c4
  subst c1 c2
  simp only [hf, hf']
  cases b2
  · exact ⟨rfl, rfl, c3.trans a3, c4.trans a4⟩
  obtain ⟨d1, d2, d3, d4⟩ := ensureEdge_noData m2 (c, a)
  rcases hg : m2.ensureEdge (c, a) with ⟨m3, b3⟩
  rcases hg' : m2.noData.ensureEdge (c, a) with ⟨m3', b3'⟩
  rw [hg, hg'] at d1 d2
  rw [hg] at d3 d4
  simp only at d1 d2 d3 d4
  subst d1 d2
  simp only [hg, hg']
  cases b3
  · exact ⟨rfl, rfl, d3.trans (c3.trans a3), d4.trans (c4.trans a4)⟩
  · exact ⟨rfl, rfl, d3.trans (c3.trans a3), d4.trans (c4.trans a4)⟩

/-- what `SetCellData` with the data of an input cell makes of the data of the output -/
def passed (data : Option (AMap D)) (id : CId) (fid : CId) (x : Option (AMap D)) : Option (AMap D) :=
  match data with
  | none => x
  | some a =>
    match a.find? id with
    | none => x
    | some d => some ((x.getD []).set fid d)

/-- two states that differ in data only, where the data are related by `Rel` -/
structure Carried (Rel : Option (AMap D) → Option (AMap E) → Prop) (s : St Q D) (s' : St Q E) : Prop where
  filt : s'.filt = s.filt
  out : s'.out.noData = s.out.noData
  data : Rel s.out.cellData s'.out.cellData
  pd : s.out.pointData = none
  pd' : s'.out.pointData = none

section sims
variable {Rel : Option (AMap D) → Option (AMap E) → Prop}

theorem simD_modifyFilt (g : Filt → Filt) : Sim (Carried (Q := Q) Rel) Eq (modifyFilt g) (modifyFilt g) :=
  fun _ _ h => ⟨rfl, ⟨congrArg g h.filt, h.out, h.data, h.pd, h.pd'⟩⟩

theorem simD_setEpi (e : Edge) (id : PId) : Sim (Carried (Q := Q) Rel) Eq (setEpi e id) (setEpi e id) := simD_modifyFilt _

theorem simD_modifyOut {g : Mesh Q D → Mesh Q D} {g' : Mesh Q E → Mesh Q E} {k : Mesh Q Unit → Mesh Q Unit}
    (h1 : ∀ o, (g o).noData = k o.noData) (h2 : ∀ o, (g' o).noData = k o.noData) (h3 : ∀ o, (g o).cellData = o.cellData)
    (h4 : ∀ o, (g' o).cellData = o.cellData) (h5 : ∀ o, (g o).pointData = o.pointData)
    (h6 : ∀ o, (g' o).pointData = o.pointData) : Sim (Carried (Q := Q) Rel) Eq (modifyOut g) (modifyOut g') :=
  fun s s' h => ⟨rfl, ⟨h.filt, by
    show (g' s'.out).noData = (g s.out).noData
    rw [h1, h2, h.out], by
    show Rel (g s.out).cellData (g' s'.out).cellData
    rw [h3, h4]; exact h.data, (h5 _).trans h.pd, (h6 _).trans h.pd'⟩⟩

theorem simD_setPoint (k : PId) (p : Q) :
    Sim (Carried (Q := Q) Rel) Eq (modifyOut fun o => o.setPoint k p) (modifyOut fun o => o.setPoint k p) :=
  simD_modifyOut (k := fun o => o.setPoint k p) (fun _ => rfl) (fun _ => rfl) (fun _ => rfl) (fun _ => rfl) (fun _ => rfl) (fun _ => rfl)

theorem simD_reserve [Zero Q] (n : Nat) : Sim (Carried (Q := Q) Rel) Eq
    (modifyOut fun o => { o with points := o.points.reserve n 0 }) (modifyOut fun o => { o with points := o.points.reserve n 0 }) :=
  simD_modifyOut (k := fun o => { o with points := o.points.reserve n 0 }) (fun _ => rfl) (fun _ => rfl) (fun _ => rfl) (fun _ => rfl)
    (fun _ => rfl) (fun _ => rfl)

theorem Carried.points {s : St Q D} {s' : St Q E} (h : Carried Rel s s') : s'.out.points = s.out.points :=
  congrArg Mesh.points h.out

theorem Carried.left {s : St Q D} {s' : St Q E} (h : Carried Rel s s') : s'.out.left = s.out.left :=
  congrArg Mesh.left h.out

theorem simD_numberOfPoints : Sim (Carried (Q := Q) Rel) Eq numberOfPoints numberOfPoints :=
  fun s s' h => ⟨by show s.out.points.length = s'.out.points.length; rw [h.points], h⟩

theorem simD_getOutPoint (v : PId) : Sim (Carried (Q := Q) Rel) Eq (getOutPoint v) (getOutPoint v) :=
  fun s s' h => ⟨ResRel.of_eq (by
    show s.out.getPoint v = s'.out.getPoint v
    unfold Mesh.getPoint; rw [h.points]), h⟩

theorem simD_addFace (a b c : PId) : Sim (Carried (Q := Q) Rel) Eq (addFace a b c) (addFace a b c) := by
  intro s s' h
  obtain ⟨a1, a2, a3, a4⟩ := addFaceTriangle_noData s.out a b c
  obtain ⟨b1, b2, b3, b4⟩ := addFaceTriangle_noData s'.out a b c
  rw [h.out] at b1 b2
  exact ⟨a2.trans b2.symm, ⟨h.filt, b1.trans a1.symm, by
    show Rel (s.out.addFaceTriangle a b c).1.cellData (s'.out.addFaceTriangle a b c).1.cellData
    rw [a3, b3]; exact h.data, a4.trans h.pd, b4.trans h.pd'⟩⟩

theorem simD_requireTriangle (c : Option Cell) : Sim (Carried (Q := Q) Rel) Eq (requireTriangle c) (requireTriangle c) := by
  unfold requireTriangle
  split
  · exact Sim.fail _
  · split
    · exact Sim.pure rfl
    · exact Sim.fail _

theorem simD_pushChild (q : Option Edge) : Sim (Carried (Q := Q) Rel) Eq (pushChild q) (pushChild q) := by
  intro s s' h
  unfold pushChild
  cases q with
  | none => exact ⟨rfl, h⟩
  | some e =>
    simp only [h.left]
    cases s.out.left e with
    | none => exact ⟨rfl, h⟩
    | some fid => exact ⟨rfl, ⟨by simp only [h.filt], h.out, h.data, h.pd, h.pd'⟩⟩

theorem simD_readEdge (sp : Split) (i : Nat) : Sim (Carried (Q := Q) Rel) Eq (sp.readEdge i) (sp.readEdge i) := by
  intro s s' h
  unfold Split.readEdge
  cases sp.edge i <;> exact ⟨rfl, h⟩

theorem simD_writePoints [Zero Q] {val : PId → Q → Except Fail Q} (l : List (PId × Q)) :
    Sim (Carried (Q := Q) Rel) Eq (writePoints val l) (writePoints val l) := by
  unfold writePoints
  refine Sim.forEach fun kp _ => ?_
  refine (Sim.lift (ResRel.of_eq rfl)).bind ?_
  rintro p _ rfl
  exact simD_setPoint _ _

theorem simD_writePointsTo {val : PId → P → Except Fail Q} (l : List (PId × P)) :
    Sim (Carried (Q := Q) Rel) Eq (writePointsTo val l) (writePointsTo val l) := by
  unfold writePointsTo
  refine Sim.forEach fun kp _ => ?_
  refine (Sim.lift (ResRel.of_eq rfl)).bind ?_
  rintro p _ rfl
  exact simD_setPoint _ _

variable {inp : Mesh P D} {inp' : Mesh P E} (hi : inp'.noData = inp.noData)
include hi

theorem findEdge_noData (x y : PId) : inp'.findEdge x y = inp.findEdge x y := by
  rw [show inp'.findEdge x y = inp'.noData.findEdge x y from rfl, hi]; rfl

theorem isAtBorder_noData (e : Edge) : inp'.isAtBorder e = inp.isAtBorder e := by
  rw [show inp'.isAtBorder e = inp'.noData.isAtBorder e from rfl, hi]; rfl

theorem getPoint_noData (v : PId) : inp'.getPoint v = inp.getPoint v := by
  rw [show inp'.getPoint v = inp'.noData.getPoint v from rfl, hi]; rfl

theorem cells_noData : inp'.cells = inp.cells := congrArg Mesh.cells hi
theorem points_noData : inp'.points = inp.points := congrArg Mesh.points hi
theorem edges_noData : inp'.edges = inp.edges := congrArg Mesh.edges hi
theorem hasEdgeCells_noData : inp'.hasEdgeCells = inp.hasEdgeCells := congrArg Mesh.hasEdgeCells hi

theorem simD_addEdgePoint (np : Edge → Except Fail Q) (x y n : PId) :
    Sim (Carried (Q := Q) Rel) Eq (addEdgePoint inp np x y n) (addEdgePoint inp' np x y n) := by
  unfold addEdgePoint
  rw [findEdge_noData hi]
  split
  · exact Sim.fail _
  · rename_i e _
    intro s s' h
    simp only [h.filt]
    split
    · exact ⟨rfl, h⟩
    · refine ((Sim.lift (R := Carried Rel) (ResRel.of_eq rfl)).bind ?_) s s' h
      rintro p _ rfl
      refine (simD_setEpi _ _).bind fun _ _ _ => (simD_setEpi _ _).bind fun _ _ _ => (simD_setPoint _ _).bind fun _ _ _ => Sim.pure rfl

theorem simD_addThree (np : Edge → Except Fail Q) (c : Option Cell) :
    Sim (Carried (Q := Q) Rel) Eq (addThree inp np c) (addThree inp' np c) := by
  unfold addThree
  refine (simD_requireTriangle c).bind ?_
  rintro t _ rfl
  refine simD_numberOfPoints.bind ?_
  rintro n _ rfl
  refine (simD_addEdgePoint hi np _ _ n).bind ?_
  rintro n _ rfl
  refine (simD_addEdgePoint hi np _ _ n).bind ?_
  rintro n _ rfl
  exact (simD_addEdgePoint hi np _ _ n).bind fun _ _ _ => Sim.pure rfl

theorem simD_sq3Mark (n : PId) (l : List (PId × PId)) :
    Sim (Carried (Q := Q) Rel) Eq (sq3Mark inp n l) (sq3Mark inp' n l) := by
  unfold sq3Mark
  refine Sim.forEach fun xy _ => ?_
  rw [findEdge_noData hi]
  split
  · exact Sim.pure rfl
  · intro s s' h
    simp only [h.filt]
    split
    · exact ⟨rfl, h⟩
    · exact simD_setEpi _ _ s s' h

variable (hR : ∀ id fid x y, Rel x y → Rel (passed inp.cellData id fid x) (passed inp'.cellData id fid y))
include hR

omit hi in
theorem simD_passCellData (id : CId) (e : Option Edge) :
    Sim (Carried (Q := Q) Rel) Eq (passCellData inp id e) (passCellData inp' id e) := by
  have key : ∀ {F : Type} (m : Mesh P F) (s : St Q F), ∃ s₁, passCellData m id e s = (.ok (), s₁) ∧ s₁.filt = s.filt ∧
      s₁.out.noData = s.out.noData ∧ s₁.out.pointData = s.out.pointData ∧
      s₁.out.cellData = match e.bind s.out.left with
        | none => s.out.cellData
        | some fid => passed m.cellData id fid s.out.cellData := by
    intro F m s
    unfold passCellData
    cases e with
    | none => exact ⟨s, rfl, rfl, rfl, rfl, rfl⟩
    | some e =>
      simp only [Option.bind_some]
      unfold passed
      cases hm : m.cellData with
      | none => exact ⟨s, rfl, rfl, rfl, rfl, by cases s.out.left e <;> rfl⟩
      | some a =>
        simp only
        cases ha : a.find? id with
        | none => exact ⟨s, rfl, rfl, rfl, rfl, by cases s.out.left e <;> rfl⟩
        | some d =>
          cases s.out.left e with
          | none => exact ⟨s, rfl, rfl, rfl, rfl, rfl⟩
          | some fid => exact ⟨_, rfl, rfl, rfl, rfl, rfl⟩
  intro s s' h
  obtain ⟨s₁, a1, a2, a3, a4, a5⟩ := key inp s
  obtain ⟨s₂, b1, b2, b3, b4, b5⟩ := key inp' s'
  rw [a1, b1]
  refine ⟨rfl, ⟨by rw [a2, b2, h.filt], by rw [a3, b3, h.out], ?_, a4.trans h.pd, b4.trans h.pd'⟩⟩
  rw [a5, b5, h.left]
  cases e.bind s.out.left with
  | none => exact h.data
  | some fid => exact hR _ _ _ _ h.data

omit hi in
theorem simD_addPass (id : CId) (a b c : PId) : Sim (Carried (Q := Q) Rel) Eq (addPass inp id a b c) (addPass inp' id a b c) := by
  unfold addPass
  refine (simD_addFace a b c).bind ?_
  rintro e _ rfl
  exact (simD_passCellData hR id e).bind fun _ _ _ => Sim.pure rfl

omit hi in
theorem simD_splitOne (sp : Split) (ii : Nat) (id : CId) :
    Sim (Carried (Q := Q) Rel) Eq (splitOne inp sp ii id) (splitOne inp' sp ii id) := by
  unfold splitOne
  refine (simD_readEdge sp _).bind ?_
  rintro e _ rfl
  exact (simD_addPass hR _ _ _ _).bind fun _ _ _ => (simD_addPass hR _ _ _ _).bind fun _ _ _ => Sim.pure rfl

omit hi in
theorem simD_splitTwo (sp : Split) (ii jj : Nat) (id : CId) :
    Sim (Carried (Q := Q) Rel) Eq (splitTwo inp sp ii jj id) (splitTwo inp' sp ii jj id) := by
  have three : ∀ a b c a' b' c' a'' b'' c'' : PId, Sim (Carried (Q := Q) Rel) Eq
      (Prog.bind (addPass inp id a b c) fun _ => Prog.bind (addPass inp id a' b' c') fun _ =>
        Prog.bind (addPass inp id a'' b'' c'') fun _ => Prog.pure ())
      (Prog.bind (addPass inp' id a b c) fun _ => Prog.bind (addPass inp' id a' b' c') fun _ =>
        Prog.bind (addPass inp' id a'' b'' c'') fun _ => Prog.pure ()) := fun a b c a' b' c' a'' b'' c'' =>
    (simD_addPass hR _ _ _ _).bind fun _ _ _ => (simD_addPass hR _ _ _ _).bind fun _ _ _ =>
      (simD_addPass hR _ _ _ _).bind fun _ _ _ => Sim.pure rfl
  unfold splitTwo
  simp only
  split
  · refine (simD_readEdge sp _).bind ?_
    rintro e _ rfl
    refine (simD_readEdge sp _).bind ?_
    rintro e' _ rfl
    exact three _ _ _ _ _ _ _ _ _
  split
  · refine (simD_readEdge sp _).bind ?_
    rintro e _ rfl
    refine (simD_readEdge sp _).bind ?_
    rintro e' _ rfl
    exact three _ _ _ _ _ _ _ _ _
  split
  · refine (simD_readEdge sp _).bind ?_
    rintro e _ rfl
    refine (simD_readEdge sp _).bind ?_
    rintro e' _ rfl
    exact three _ _ _ _ _ _ _ _ _
  · exact Sim.pure rfl

omit hi in
theorem simD_splitThree (sp : Split) (u : Bool) (id : CId) :
    Sim (Carried (Q := Q) Rel) Eq (splitThree inp sp u id) (splitThree inp' sp u id) := by
  unfold splitThree
  refine (simD_readEdge sp _).bind ?_
  rintro e0 _ rfl
  refine (simD_readEdge sp _).bind ?_
  rintro e1 _ rfl
  refine (simD_readEdge sp _).bind ?_
  rintro e2 _ rfl
  cases u
  · refine (simD_addPass hR _ _ _ _).bind ?_
    rintro q _ rfl
    refine (simD_pushChild _).bind fun _ _ _ => ?_
    refine (simD_addPass hR _ _ _ _).bind ?_
    rintro q _ rfl
    refine (simD_pushChild _).bind fun _ _ _ => ?_
    refine (simD_addPass hR _ _ _ _).bind ?_
    rintro q _ rfl
    refine (simD_pushChild _).bind fun _ _ _ => ?_
    refine (simD_addPass hR _ _ _ _).bind ?_
    rintro q _ rfl
    exact (simD_pushChild _).bind fun _ _ _ => Sim.pure rfl
  · exact (simD_addPass hR _ _ _ _).bind fun _ _ _ => (simD_addPass hR _ _ _ _).bind fun _ _ _ =>
      (simD_addPass hR _ _ _ _).bind fun _ _ _ => (simD_addPass hR _ _ _ _).bind fun _ _ _ => Sim.pure rfl

theorem simD_outputCellsOfTriangle (id : CId) (t : PId × PId × PId) :
    Sim (Carried (Q := Q) Rel) Eq (outputCellsOfTriangle inp id t) (outputCellsOfTriangle inp' id t) := by
  intro s s' h
  unfold outputCellsOfTriangle
  have hsp : splitArr inp' s'.filt.epi t = splitArr inp s.filt.epi t := by
    unfold splitArr
    simp only [findEdge_noData hi, h.filt]
  simp only [hsp]
  split
  · exact ((simD_addPass hR _ _ _ _).bind fun _ _ _ => Sim.pure rfl) s s' h
  · exact simD_splitOne hR _ _ _ s s' h
  · exact simD_splitTwo hR _ _ _ _ s s' h
  · rw [h.filt]; exact simD_splitThree hR _ _ _ s s' h

theorem simD_generateOutputCells : Sim (Carried (Q := Q) Rel) Eq (generateOutputCells inp) (generateOutputCells inp') := by
  unfold generateOutputCells
  refine (simD_modifyFilt _).bind fun _ _ _ => ?_
  rw [cells_noData hi]
  unfold loopOrHang
  refine Sim.forEach fun c _ => ?_
  split
  · exact Sim.fail _
  · unfold actCell
    split
    · exact simD_outputCellsOfTriangle hi hR _ _
    · exact Sim.pure rfl

omit hi in
theorem simD_sq3Emit (u : Bool) (id : CId) (a b c : PId) :
    Sim (Carried (Q := Q) Rel) Eq (sq3Emit inp u id a b c) (sq3Emit inp' u id a b c) := by
  unfold sq3Emit
  refine (simD_addPass hR _ _ _ _).bind ?_
  rintro q _ rfl
  split
  · exact Sim.pure rfl
  · exact simD_pushChild _

theorem simD_sq3Darts (u : Bool) (id : CId) (t : PId × PId × PId) (l : List (PId × PId)) :
    Sim (Carried (Q := Q) Rel) Eq (sq3Darts inp u id t l) (sq3Darts inp' u id t l) := by
  induction l with
  | nil => exact Sim.pure rfl
  | cons xy l ih =>
    intro s s' h
    unfold sq3Darts
    simp only [findEdge_noData hi, h.filt, isAtBorder_noData hi]
    split
    · exact ((simD_addPass hR _ _ _ _).bind fun _ _ _ => Sim.pure rfl) s s' h
    · split
      · split
        · exact ((simD_sq3Emit hR _ _ _ _ _).bind fun _ _ _ => ih) s s' h
        · exact ((simD_sq3Emit hR _ _ _ _ _).bind fun _ _ _ => (simD_sq3Emit hR _ _ _ _ _).bind fun _ _ _ =>
            (simD_setEpi _ _).bind fun _ _ _ => ih) s s' h
      · exact ih s s' h

theorem simD_sq3OutputCells : Sim (Carried (Q := Q) Rel) Eq (sq3OutputCells inp) (sq3OutputCells inp') := by
  unfold sq3OutputCells
  refine (simD_modifyFilt _).bind fun _ _ _ => ?_
  rw [cells_noData hi]
  unfold loopOrHang
  refine Sim.forEach fun c _ => ?_
  split
  · exact Sim.fail _
  · unfold sq3Act
    split
    · exact Sim.fail _
    · split
      · intro s s' h
        simp only [h.filt]
        exact simD_sq3Darts hi hR _ _ _ _ s s' h
      · exact Sim.pure rfl

end sims

section points
variable {Rel : Option (AMap D) → Option (AMap E) → Prop} {inp : Mesh P D} {inp' : Mesh P E} (hi : inp'.noData = inp.noData)
variable [Field K] [Zero P] [Add P] [SMul K P] [Zero Q]

theorem simD_generateOutputPoints (hi : inp'.noData = inp.noData) {copy : M Q D Unit} {copy' : M Q E Unit}
    {addNew : Option Cell → M Q D Unit} {addNew' : Option Cell → M Q E Unit} (hc : Sim (Carried (Q := Q) Rel) Eq copy copy')
    (hn : ∀ c, Sim (Carried (Q := Q) Rel) Eq (addNew c) (addNew' c)) :
    Sim (Carried (Q := Q) Rel) Eq (generateOutputPoints copy addNew inp) (generateOutputPoints copy' addNew' inp') := by
  refine hc.bind fun _ _ _ => (simD_modifyFilt _).bind fun _ _ _ => (simD_modifyFilt _).bind fun _ _ _ => ?_
  intro s s' h
  simp only [h.filt, cells_noData hi]
  split
  · exact Sim.forEach (fun c _ => hn c.2) s s' h
  · refine Sim.forEach (fun id _ => ?_) s s' h
    split
    · exact Sim.fail _
    · exact Sim.pure rfl
    · exact hn _

theorem simD_edgeOutputPoints (hi : inp'.noData = inp.noData) {copy : M Q D Unit} {copy' : M Q E Unit}
    {addNew : Edge → M Q D Unit} {addNew' : Edge → M Q E Unit} (hc : Sim (Carried (Q := Q) Rel) Eq copy copy')
    (hn : ∀ c, Sim (Carried (Q := Q) Rel) Eq (addNew c) (addNew' c)) :
    Sim (Carried (Q := Q) Rel) Eq (edgeOutputPoints copy addNew inp) (edgeOutputPoints copy' addNew' inp') := by
  refine hc.bind fun _ _ _ => (simD_modifyFilt _).bind fun _ _ _ => (simD_modifyFilt _).bind fun _ _ _ => ?_
  intro s s' h
  simp only [h.filt, edges_noData hi, hasEdgeCells_noData hi]
  split
  · split
    · exact Sim.forEach (fun c _ => hn c) s s' h
    · exact ⟨rfl, h⟩
  · refine Sim.forEach (fun oe _ => ?_) s s' h
    split
    · exact hn _
    · exact Sim.pure rfl

theorem simD_addNewEdgePoint (np : Edge → Except Fail Q) (e : Edge) :
    Sim (Carried (Q := Q) Rel) Eq (addNewEdgePoint np e) (addNewEdgePoint np e) := by
  unfold addNewEdgePoint
  refine (Sim.lift (ResRel.of_eq rfl)).bind ?_
  rintro p _ rfl
  refine simD_numberOfPoints.bind ?_
  rintro n _ rfl
  exact (simD_setEpi _ _).bind fun _ _ _ => (simD_setEpi _ _).bind fun _ _ _ => simD_setPoint _ _

include hi

theorem simD_linearAddNew (c : Option Cell) : Sim (Carried (Q := P) Rel) Eq (linearAddNew K inp c) (linearAddNew K inp' c) := by
  unfold linearAddNew
  refine (simD_requireTriangle c).bind ?_
  rintro t _ rfl
  refine simD_numberOfPoints.bind ?_
  rintro n _ rfl
  refine (simD_getOutPoint _).bind ?_
  rintro pa _ rfl
  refine (simD_getOutPoint _).bind ?_
  rintro pb _ rfl
  refine (simD_getOutPoint _).bind ?_
  rintro pc _ rfl
  refine (simD_addEdgePoint hi _ _ _ n).bind ?_
  rintro n _ rfl
  refine (simD_addEdgePoint hi _ _ _ n).bind ?_
  rintro n _ rfl
  exact (simD_addEdgePoint hi _ _ _ n).bind fun _ _ _ => Sim.pure rfl

theorem simD_sq3AddNewTo (cast : P → Q) (c : Option Cell) :
    Sim (Carried (Q := Q) Rel) Eq (sq3AddNewTo K cast inp c) (sq3AddNewTo K cast inp' c) := by
  unfold sq3AddNewTo
  refine (simD_requireTriangle c).bind ?_
  rintro t _ rfl
  simp only [getPoint_noData hi]
  refine (Sim.lift (ResRel.of_eq rfl)).bind ?_
  rintro pa _ rfl
  refine (Sim.lift (ResRel.of_eq rfl)).bind ?_
  rintro pb _ rfl
  refine (Sim.lift (ResRel.of_eq rfl)).bind ?_
  rintro pc _ rfl
  refine simD_numberOfPoints.bind ?_
  rintro n _ rfl
  exact (simD_setPoint _ _).bind fun _ _ _ => simD_sq3Mark hi n _

theorem simD_sq3AddNew (c : Option Cell) : Sim (Carried (Q := P) Rel) Eq (sq3AddNew K inp c) (sq3AddNew K inp' c) :=
  simD_sq3AddNewTo hi id c

theorem simD_copyPointsTo (cast : P → Q) : Sim (Carried (Q := Q) Rel) Eq (copyPointsTo cast inp) (copyPointsTo cast inp') := by
  unfold copyPointsTo
  rw [points_noData hi]
  exact simD_modifyOut
    (k := fun o => { o with points := inp.points.foldl (fun m kp => m.set kp.1 (cast kp.2)) (o.points.reserve inp.points.length 0) })
    (fun _ => rfl) (fun _ => rfl) (fun _ => rfl) (fun _ => rfl) (fun _ => rfl) (fun _ => rfl)

theorem simD_copyPoints : Sim (Carried (Q := P) Rel) Eq (copyPoints inp) (copyPoints inp') := simD_copyPointsTo hi id

theorem smoothingPoint_data (cosn : Nat → K) : smoothingPoint cosn inp' = smoothingPoint cosn inp := by
  rw [← smoothingPoint_noData inp', hi, smoothingPoint_noData]

theorem loopSmoothSet_data (l : List CId) : loopSmoothSet inp' l = loopSmoothSet inp l := by
  rw [← loopSmoothSet_noData inp', hi, loopSmoothSet_noData]

theorem loopEdgeValue_data (cosn : Nat → K) (sel : List (Option Edge)) :
    loopEdgeValue cosn inp' sel = loopEdgeValue cosn inp sel := by
  rw [← loopEdgeValue_noData inp', hi, loopEdgeValue_noData]

theorem linearPoint_data : linearPoint K inp' = linearPoint K inp := by
  rw [← linearPoint_noData inp', hi, linearPoint_noData]

theorem loopPoint_data : loopPoint K inp' = loopPoint K inp := by
  rw [← loopPoint_noData inp', hi, loopPoint_noData]

theorem butterflyPoint_data : butterflyPoint K inp' = butterflyPoint K inp := by
  rw [← butterflyPoint_noData inp', hi, butterflyPoint_noData]

theorem simD_loopCopy (cosn : Nat → K) : Sim (Carried (Q := P) Rel) Eq (loopCopy cosn inp) (loopCopy cosn inp') := by
  unfold loopCopy
  rw [points_noData hi, smoothingPoint_data hi]
  refine (simD_reserve _).bind fun _ _ _ => ?_
  intro s s' h
  simp only [h.filt, loopSmoothSet_data hi]
  split
  · exact simD_writePoints _ s s' h
  · refine ((Sim.lift (R := Carried Rel) (ResRel.of_eq rfl)).bind ?_) s s' h
    rintro set _ rfl
    exact simD_writePoints _

theorem simD_loopCopyTo (cast : P → Q) (cosn : Nat → K) :
    Sim (Carried (Q := Q) Rel) Eq (loopCopyTo cast cosn inp) (loopCopyTo cast cosn inp') := by
  unfold loopCopyTo
  rw [points_noData hi, smoothingPoint_data hi]
  refine (simD_reserve _).bind fun _ _ _ => ?_
  intro s s' h
  simp only [h.filt, loopSmoothSet_data hi]
  split
  · exact simD_writePointsTo _ s s' h
  · refine ((Sim.lift (R := Carried Rel) (ResRel.of_eq rfl)).bind ?_) s s' h
    rintro set _ rfl
    exact simD_writePointsTo _

theorem simD_loopEdgeCopy (cosn : Nat → K) : Sim (Carried (Q := P) Rel) Eq (loopEdgeCopy cosn inp) (loopEdgeCopy cosn inp') := by
  unfold loopEdgeCopy
  rw [points_noData hi]
  refine (simD_reserve _).bind fun _ _ _ => ?_
  intro s s' h
  simp only [h.filt, loopEdgeValue_data hi]
  exact simD_writePoints _ s s' h

theorem simD_loopEdgeCopyTo (cast : P → Q) (cosn : Nat → K) :
    Sim (Carried (Q := Q) Rel) Eq (loopEdgeCopyTo cast cosn inp) (loopEdgeCopyTo cast cosn inp') := by
  unfold loopEdgeCopyTo
  rw [points_noData hi]
  refine (simD_reserve _).bind fun _ _ _ => ?_
  intro s s' h
  simp only [h.filt, loopEdgeValue_data hi]
  exact simD_writePointsTo _ s s' h

variable (hR : ∀ id fid x y, Rel x y → Rel (passed inp.cellData id fid x) (passed inp'.cellData id fid y))
include hR

theorem simD_cellGenerate (sch : Scheme) (cosn : Nat → K) :
    Sim (Carried (Q := P) Rel) Eq (cellGenerate sch cosn inp) (cellGenerate sch cosn inp') := by
  cases sch with
  | linear => exact (simD_generateOutputPoints hi (simD_copyPoints hi) (simD_linearAddNew hi)).bind fun _ _ _ =>
      simD_generateOutputCells hi hR
  | loop => exact (simD_generateOutputPoints hi (simD_loopCopy hi cosn) (fun c => by
      unfold loopAddNew
      rw [loopPoint_data hi]; exact simD_addThree hi _ c)).bind fun _ _ _ => simD_generateOutputCells hi hR
  | butterfly => exact (simD_generateOutputPoints hi (simD_copyPoints hi) (fun c => by
      unfold butterflyAddNew
      rw [butterflyPoint_data hi]; exact simD_addThree hi _ c)).bind fun _ _ _ => simD_generateOutputCells hi hR
  | sqrt3 => exact (simD_generateOutputPoints hi (simD_copyPoints hi) (simD_sq3AddNew hi)).bind fun _ _ _ =>
      simD_sq3OutputCells hi hR

theorem simD_edgeGenerate (sch : EdgeScheme) (cosn : Nat → K) :
    Sim (Carried (Q := P) Rel) Eq (edgeGenerate sch cosn inp) (edgeGenerate sch cosn inp') := by
  unfold edgeGenerate
  rw [linearPoint_data hi, loopPoint_data hi, butterflyPoint_data hi]
  cases sch with
  | linear => exact (simD_edgeOutputPoints hi (simD_copyPoints hi) (simD_addNewEdgePoint _)).bind fun _ _ _ =>
      simD_generateOutputCells hi hR
  | loop => exact (simD_edgeOutputPoints hi (simD_loopEdgeCopy hi cosn) (simD_addNewEdgePoint _)).bind fun _ _ _ =>
      simD_generateOutputCells hi hR
  | butterfly => exact (simD_edgeOutputPoints hi (simD_copyPoints hi) (simD_addNewEdgePoint _)).bind fun _ _ _ =>
      simD_generateOutputCells hi hR

theorem simD_cellGenerateTo (sch : TwoTypeScheme) (cast : P → Q) (cosn : Nat → K) :
    Sim (Carried (Q := Q) Rel) Eq (cellGenerateTo sch cast cosn inp) (cellGenerateTo sch cast cosn inp') := by
  unfold cellGenerateTo
  rw [loopPoint_data hi, butterflyPoint_data hi]
  cases sch with
  | loop => exact (simD_generateOutputPoints hi (simD_loopCopyTo hi cast cosn) (simD_addThree hi _)).bind fun _ _ _ =>
      simD_generateOutputCells hi hR
  | butterfly => exact (simD_generateOutputPoints hi (simD_copyPointsTo hi cast) (simD_addThree hi _)).bind fun _ _ _ =>
      simD_generateOutputCells hi hR
  | sqrt3 => exact (simD_generateOutputPoints hi (simD_copyPointsTo hi cast) (simD_sq3AddNewTo hi cast)).bind fun _ _ _ =>
      simD_sq3OutputCells hi hR

theorem simD_edgeGenerateTo (sch : EdgeScheme) (cast : P → Q) (cosn : Nat → K) :
    Sim (Carried (Q := Q) Rel) Eq (edgeGenerateTo sch cast cosn inp) (edgeGenerateTo sch cast cosn inp') := by
  unfold edgeGenerateTo
  rw [linearPoint_data hi, loopPoint_data hi, butterflyPoint_data hi]
  cases sch with
  | linear => exact (simD_edgeOutputPoints hi (simD_copyPointsTo hi cast) (simD_addNewEdgePoint _)).bind fun _ _ _ =>
      simD_generateOutputCells hi hR
  | loop => exact (simD_edgeOutputPoints hi (simD_loopEdgeCopyTo hi cast cosn) (simD_addNewEdgePoint _)).bind fun _ _ _ =>
      simD_generateOutputCells hi hR
  | butterfly => exact (simD_edgeOutputPoints hi (simD_copyPointsTo hi cast) (simD_addNewEdgePoint _)).bind fun _ _ _ =>
      simD_generateOutputCells hi hR

end points

/-- the data of a result that is what `g` makes of the data of another one -/
theorem mapData_of {g : D → E} {m : Mesh Q D} {m' : Mesh Q E} (h : m'.noData = m.noData)
    (hd : m'.cellData = m.cellData.map fun a => a.map fun kd => (kd.1, g kd.2)) (hp : m.pointData = none) (hp' : m'.pointData = none) :
    m' = m.mapData g := by
  cases m
  cases m'
  simp only [Mesh.noData, Mesh.mk.injEq, true_and] at h
  obtain ⟨rfl, rfl, rfl, rfl, rfl, rfl, -⟩ := h
  simp only at hd hp hp'
  subst hd hp hp'
  rfl

theorem runFilter_mapData {g : D → E} {lib : QELib} {gen : M Q D Unit} {gen' : M Q E Unit} (f : Filt)
    (h : Sim (Carried (Q := Q) fun x y => y = x.map fun a => a.map fun kd => (kd.1, g kd.2)) Eq gen gen') :
    runFilter lib gen' f = ((runFilter lib gen f).1.map (·.mapData g), (runFilter lib gen f).2) := by
  obtain ⟨h1, h2⟩ := h ⟨f, Mesh.empty⟩ ⟨f, Mesh.empty⟩ ⟨rfl, rfl, rfl, rfl, rfl⟩
  unfold runFilter
  rcases hg : gen ⟨f, Mesh.empty⟩ with ⟨r, s⟩
  rcases hg' : gen' ⟨f, Mesh.empty⟩ with ⟨r', s'⟩
  rw [hg, hg'] at h1 h2
  cases r <;> cases r'
  · cases h1
    simp only at h2 ⊢
    rw [h2.filt]; rfl
  · exact h1.elim
  · exact h1.elim
  · have := mapData_of h2.out h2.data h2.pd h2.pd'
    simp only at h2 this ⊢
    rw [h2.filt, this]; rfl

theorem runFilter_noData {lib : QELib} {gen : M Q D Unit} {gen' : M Q E Unit} (f : Filt)
    (h : Sim (Carried (Q := Q) fun _ _ => True) Eq gen gen') :
    (runFilter lib gen' f).1.map Mesh.noData = (runFilter lib gen f).1.map Mesh.noData ∧
    (runFilter lib gen' f).2 = (runFilter lib gen f).2 := by
  obtain ⟨h1, h2⟩ := h ⟨f, Mesh.empty⟩ ⟨f, Mesh.empty⟩ ⟨rfl, rfl, trivial, rfl, rfl⟩
  unfold runFilter
  rcases hg : gen ⟨f, Mesh.empty⟩ with ⟨r, s⟩
  rcases hg' : gen' ⟨f, Mesh.empty⟩ with ⟨r', s'⟩
  rw [hg, hg'] at h1 h2
  cases r <;> cases r'
  · cases h1
    exact ⟨rfl, h2.filt⟩
  · exact h1.elim
  · exact h1.elim
  · refine ⟨congrArg Except.ok ?_, h2.filt⟩
    have e := h2.out
    unfold Mesh.noData at e ⊢
    simp only [Mesh.mk.injEq, true_and, and_true] at e ⊢
    obtain ⟨h1, h2, h3, h4, h5, h6⟩ := e
    exact ⟨h1, h2, h3, h4, h5, by rw [h4, h5, h2]⟩

/-- data passed on are passed on whatever is made of them -/
theorem passed_map (g : D → E) (inp : Mesh P D) (id fid : CId) (x : Option (AMap D)) (y : Option (AMap E))
    (h : y = x.map fun a => a.map fun kd => (kd.1, g kd.2)) :
    passed (inp.mapData g).cellData id fid y = (passed inp.cellData id fid x).map fun a => a.map fun kd => (kd.1, g kd.2) := by
  subst h
  unfold passed
  show (match (inp.cellData.map fun a => a.map fun kd => (kd.1, g kd.2)) with
    | none => _
    | some a => _) = _
  cases inp.cellData with
  | none => rfl
  | some a =>
    simp only [Option.map_some]
    rw [AMap.find?_map]
    cases a.find? id with
    | none => rfl
    | some d =>
      simp only [Option.map_some]
      rw [← AMap.set_map]
      cases x <;> rfl

section filters
variable [Field K] [Zero P] [Add P] [SMul K P] [Zero Q]

theorem cellUpdate_mapData (g : D → E) (sch : Scheme) (lib : QELib) (cosn : Nat → K) (f : Filt) (inp : Mesh P D) :
    cellUpdate sch lib cosn f (inp.mapData g) =
      ((cellUpdate sch lib cosn f inp).1.map (·.mapData g), (cellUpdate sch lib cosn f inp).2) :=
  runFilter_mapData f (simD_cellGenerate (noData_mapData g inp) (passed_map g inp) sch cosn)

theorem cellUpdate_noData {inp : Mesh P D} {inp' : Mesh P E} (h : inp'.noData = inp.noData) (sch : Scheme) (lib : QELib)
    (cosn : Nat → K) (f : Filt) :
    (cellUpdate sch lib cosn f inp').1.map Mesh.noData = (cellUpdate sch lib cosn f inp).1.map Mesh.noData ∧
    (cellUpdate sch lib cosn f inp').2 = (cellUpdate sch lib cosn f inp).2 :=
  runFilter_noData f (simD_cellGenerate h (fun _ _ _ _ _ => trivial) sch cosn)

theorem edgeUpdate_noData {inp : Mesh P D} {inp' : Mesh P E} (h : inp'.noData = inp.noData) (sch : EdgeScheme) (lib : QELib)
    (cosn : Nat → K) (f : Filt) :
    (edgeUpdate sch lib cosn f inp').1.map Mesh.noData = (edgeUpdate sch lib cosn f inp).1.map Mesh.noData ∧
    (edgeUpdate sch lib cosn f inp').2 = (edgeUpdate sch lib cosn f inp).2 :=
  runFilter_noData f (simD_edgeGenerate h (fun _ _ _ _ _ => trivial) sch cosn)

theorem iterLoop_mapData (g : D → E) (sch : Scheme) (lib : QELib) (cosn : Nat → K) (n i : Nat) (fs : List Filt) (cur : Mesh P D) :
    iterLoop sch lib cosn n i fs (cur.mapData g) =
      ((iterLoop sch lib cosn n i fs cur).1.map (·.mapData g), (iterLoop sch lib cosn n i fs cur).2) := by
  induction n generalizing i fs cur with
  | zero => rfl
  | succ n ih =>
    unfold iterLoop
    cases fs[i]? with
    | none => rfl
    | some a =>
      cases fs[i - 1]? with
      | none => rfl
      | some b =>
        simp only [cellUpdate_mapData]
        rcases cellUpdate sch lib cosn (a.setCells b.cells) cur with ⟨_ | m, g'⟩
        · rfl
        · exact ih _ _ _

theorem iterLoop_noData (sch : Scheme) (lib : QELib) (cosn : Nat → K) (n i : Nat) (fs : List Filt) {cur : Mesh P D} {cur' : Mesh P E}
    (h : cur'.noData = cur.noData) :
    (iterLoop sch lib cosn n i fs cur').1.map Mesh.noData = (iterLoop sch lib cosn n i fs cur).1.map Mesh.noData ∧
    (iterLoop sch lib cosn n i fs cur').2 = (iterLoop sch lib cosn n i fs cur).2 := by
  induction n generalizing i fs cur cur' with
  | zero => exact ⟨congrArg Except.ok h, rfl⟩
  | succ n ih =>
    unfold iterLoop
    cases fs[i]? with
    | none => exact ⟨rfl, rfl⟩
    | some a =>
      cases fs[i - 1]? with
      | none => exact ⟨rfl, rfl⟩
      | some b =>
        obtain ⟨h1, h2⟩ := cellUpdate_noData h sch lib cosn (a.setCells b.cells)
        simp only
        generalize cellUpdate sch lib cosn (a.setCells b.cells) cur = r at h1 h2 ⊢
        generalize cellUpdate sch lib cosn (a.setCells b.cells) cur' = r' at h1 h2 ⊢
        rcases r with ⟨_ | m, g⟩ <;> rcases r' with ⟨_ | m', g'⟩
        · cases h1; cases h2
          exact ⟨rfl, rfl⟩
        · cases h1
        · cases h1
        · simp only [Except.map, Except.ok.injEq] at h1
          cases h2
          exact ih _ _ h1

theorem iterUpdate_mapData (g : D → E) (sch : Scheme) (lib : QELib) (cosn : Nat → K) (f : Iter) (inp : Mesh P D) :
    iterUpdate sch lib cosn f (inp.mapData g) =
      ((iterUpdate sch lib cosn f inp).1.map (·.mapData g), (iterUpdate sch lib cosn f inp).2) := by
  unfold iterUpdate
  simp only
  cases (List.replicate (max 1 f.levels) Filt.new)[0]? with
  | none => rfl
  | some a =>
    simp only [cellUpdate_mapData]
    rcases cellUpdate sch lib cosn (a.setCells f.cells) inp with ⟨_ | m, g'⟩
    · rfl
    · simp only [Except.map, iterLoop_mapData]

theorem iterUpdate_noData {inp : Mesh P D} {inp' : Mesh P E} (h : inp'.noData = inp.noData) (sch : Scheme) (lib : QELib)
    (cosn : Nat → K) (f : Iter) :
    (iterUpdate sch lib cosn f inp').1.map Mesh.noData = (iterUpdate sch lib cosn f inp).1.map Mesh.noData ∧
    (iterUpdate sch lib cosn f inp').2 = (iterUpdate sch lib cosn f inp).2 := by
  unfold iterUpdate
  simp only
  cases (List.replicate (max 1 f.levels) Filt.new)[0]? with
  | none => exact ⟨rfl, rfl⟩
  | some a =>
    obtain ⟨h1, h2⟩ := cellUpdate_noData h sch lib cosn (a.setCells f.cells)
    simp only
    generalize cellUpdate sch lib cosn (a.setCells f.cells) inp = r at h1 h2 ⊢
    generalize cellUpdate sch lib cosn (a.setCells f.cells) inp' = r' at h1 h2 ⊢
    rcases r with ⟨_ | m, g⟩ <;> rcases r' with ⟨_ | m', g'⟩
    · cases h1; cases h2
      exact ⟨rfl, rfl⟩
    · cases h1
    · cases h1
    · simp only [Except.map, Except.ok.injEq] at h1
      cases h2
      obtain ⟨h3, h4⟩ := iterLoop_noData sch lib cosn (max 1 f.levels - 1) 1
        ((List.replicate (max 1 f.levels) Filt.new).set 0 g) h1
      exact ⟨h3, by simp only [h4]⟩

theorem copyGeometry_noData {inp : Mesh P D} {inp' : Mesh P E} (h : inp'.noData = inp.noData) (lib : QELib) :
    (copyGeometry lib inp').noData = (copyGeometry lib inp).noData := by
  have key : ∀ {F : Type} (m : Mesh P F), (copyGeometry lib m).noData = (copyGeometry lib m.noData).noData := fun _ => rfl
  rw [key inp', h, ← key inp]

theorem condLoop_noData {S ι : Type} {upd : S → List ι → Mesh P D → Except Fail (Mesh P D) × S}
    {upd' : S → List ι → Mesh P E → Except Fail (Mesh P E) × S} {crit : Mesh P D → Prog (List ι) Unit}
    {crit' : Mesh P E → Prog (List ι) Unit}
    (hu : ∀ s sel m m', m'.noData = m.noData → (upd' s sel m').1.map Mesh.noData = (upd s sel m).1.map Mesh.noData ∧
      (upd' s sel m').2 = (upd s sel m).2)
    (hc : ∀ m m', m'.noData = m.noData → crit' m' = crit m) (n : Nat) (c : Cond S ι) {cur : Mesh P D} {cur' : Mesh P E}
    (h : cur'.noData = cur.noData) :
    (condLoop upd' crit' n c cur').map (fun r => (r.1.map Mesh.noData, r.2)) =
      (condLoop upd crit n c cur).map (fun r => (r.1.map Mesh.noData, r.2)) := by
  induction n generalizing c cur cur' with
  | zero =>
    unfold condLoop
    split
    · simp only [Option.map_some, Except.map, h]
    · rfl
  | succ n ih =>
    unfold condLoop
    split
    · simp only [Option.map_some, Except.map, h]
    · obtain ⟨h1, h2⟩ := hu c.inner c.sel _ _ h
      simp only
      generalize upd c.inner c.sel cur = r at h1 h2 ⊢
      generalize upd' c.inner c.sel cur' = r' at h1 h2 ⊢
      rcases r with ⟨_ | m, g⟩ <;> rcases r' with ⟨_ | m', g'⟩
      · cases h1; cases h2
        rfl
      · cases h1
      · cases h1
      · simp only [Except.map, Except.ok.injEq] at h1
        cases h2
        simp only [hc _ _ h1]
        rcases crit m c.sel with ⟨_ | _, sel⟩
        · rfl
        · exact ih _ h1

theorem condGenerate_noData {S ι : Type} (lib : QELib) {upd : S → List ι → Mesh P D → Except Fail (Mesh P D) × S}
    {upd' : S → List ι → Mesh P E → Except Fail (Mesh P E) × S} {crit : Mesh P D → Prog (List ι) Unit}
    {crit' : Mesh P E → Prog (List ι) Unit}
    (hu : ∀ s sel m m', m'.noData = m.noData → (upd' s sel m').1.map Mesh.noData = (upd s sel m).1.map Mesh.noData ∧
      (upd' s sel m').2 = (upd s sel m).2)
    (hc : ∀ m m', m'.noData = m.noData → crit' m' = crit m) (n : Nat) (c : Cond S ι) {inp : Mesh P D} {inp' : Mesh P E}
    (h : inp'.noData = inp.noData) :
    (condGenerate lib upd' (some crit') n c inp').map (fun r => (r.1.map Mesh.noData, r.2)) =
      (condGenerate lib upd (some crit) n c inp).map (fun r => (r.1.map Mesh.noData, r.2)) := by
  have hg := copyGeometry_noData h lib
  unfold condGenerate
  simp only [hc _ _ hg]
  rcases crit (copyGeometry lib inp) c.sel with ⟨_ | _, sel⟩
  · rfl
  · exact condLoop_noData hu hc n _ hg

theorem areaCompute_noData [LinearOrder K] (area : P → P → P → K) (a : K) (m : Mesh P D) (m' : Mesh P E) (h : m'.noData = m.noData) :
    areaCompute area a m' = areaCompute area a m := by
  have key : ∀ {F : Type} (m : Mesh P F), areaCompute area a m = areaCompute area a m.noData := fun _ => rfl
  rw [key m', h, ← key m]

theorem lengthCompute_noData [LinearOrder K] (len : P → P → K) (a : K) (m : Mesh P D) (m' : Mesh P E) (h : m'.noData = m.noData) :
    lengthCompute len a m' = lengthCompute len a m := by
  have key : ∀ {F : Type} (m : Mesh P F), lengthCompute len a m = lengthCompute len a m.noData := fun _ => rfl
  rw [key m', h, ← key m]

end filters
end Verif
