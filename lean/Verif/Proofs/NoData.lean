import Verif.Proofs.Keep
import Verif.Proofs.Conditional
/-
Runs on meshes without cell data give meshes without cell data, whatever the mesh.
-/
namespace Verif
set_option linter.unusedSectionVars false
variable {K P D : Type}

/-- the output has no cell data -/
abbrev NoData (s : St P D) : Prop := s.out.cellData = none

/-- the program leaves an output without cell data without cell data -/
abbrev KeepsNo {α : Type} (p : M P D α) : Prop := Triple NoData p (fun _ => NoData)

theorem ensureEdge_data (m : Mesh P D) (e : Edge) : (m.ensureEdge e).1.cellData = m.cellData := by
  unfold Mesh.ensureEdge
  split
  · rfl
  · split <;> rfl

theorem addFaceTriangle_data (m : Mesh P D) (a b c : PId) : (m.addFaceTriangle a b c).1.cellData = m.cellData := by
  unfold Mesh.addFaceTriangle
  split
  · rfl
  split
  · rfl
  split
  · rfl
  have h1 := ensureEdge_data m (a, b)
  rcases he1 : m.ensureEdge (a, b) with ⟨m1, _ | _⟩
  · rw [he1] at h1; exact h1
  · rw [he1] at h1
    have h2 := ensureEdge_data m1 (b, c)
    rcases he2 : m1.ensureEdge (b, c) with ⟨m2, _ | _⟩
    · rw [he2] at h2; simp only [he2]; exact h2.trans h1
    · rw [he2] at h2
      have h3 := ensureEdge_data m2 (c, a)
      rcases he3 : m2.ensureEdge (c, a) with ⟨m3, _ | _⟩
      · rw [he3] at h3; simp only [he2, he3]; exact h3.trans (h2.trans h1)
      · rw [he3] at h3; simp only [he2, he3]; exact h3.trans (h2.trans h1)

theorem modifyFilt_no (g : Filt → Filt) : KeepsNo (P := P) (D := D) (modifyFilt g) := by
  intro s u s' h h1
  cases h1; exact h

theorem modifyOut_no {g : Mesh P D → Mesh P D} (hg : ∀ o, (g o).cellData = o.cellData) : KeepsNo (modifyOut g) := by
  intro s u s' h h1
  cases h1; exact (hg _).trans h

theorem numberOfPoints_no : KeepsNo (P := P) (D := D) numberOfPoints := by
  intro s u s' h h1
  cases h1; exact h

theorem getOutPoint_no (id : PId) : KeepsNo (P := P) (D := D) (getOutPoint id) := by
  intro s u s' h h1
  have : s' = s := (congrArg Prod.snd h1).symm
  rw [this]; exact h

theorem requireTriangle_no (c : Option Cell) : KeepsNo (P := P) (D := D) (requireTriangle c) := by
  unfold requireTriangle
  split
  · exact Triple.fail _
  · split
    · exact Triple.pure _
    · exact Triple.fail _

theorem addFace_no (a b c : PId) : KeepsNo (P := P) (D := D) (addFace a b c) := by
  intro s e s' h h1
  unfold addFace at h1
  cases h1
  exact (addFaceTriangle_data _ _ _ _).trans h

section
variable {inp : Mesh P D} (hd : inp.cellData = none)
include hd

theorem passCellData_no (id : CId) (e : Option Edge) : KeepsNo (P := P) (passCellData inp id e) := by
  intro s u s' h h1
  unfold passCellData at h1
  rw [hd] at h1
  split at h1
  · cases h1; exact h
  · cases h1; exact h

theorem addPass_no (id : CId) (a b c : PId) : KeepsNo (P := P) (addPass inp id a b c) :=
  Triple.bind (addFace_no a b c) fun _ => Triple.bind (passCellData_no hd id _) fun _ => Triple.pure _

omit hd in
theorem pushChild_no (q : Option Edge) : KeepsNo (P := P) (D := D) (pushChild q) := by
  intro s u s' h h1
  unfold pushChild at h1
  split at h1
  · cases h1
  · split at h1
    · cases h1
    · cases h1; exact h

omit hd in
theorem readEdge_no (sp : Split) (i : Nat) : KeepsNo (P := P) (D := D) (sp.readEdge i) := by
  intro s u s' h h1
  unfold Split.readEdge at h1
  split at h1 <;> cases h1; exact h

local macro "keep" : tactic => `(tactic| repeat (first
  | exact Triple.pure _
  | exact Triple.fail _
  | refine Triple.bind (readEdge_no _ _) fun _ => ?_
  | refine Triple.bind (addPass_no hd _ _ _ _) fun _ => ?_
  | refine Triple.bind (pushChild_no _) fun _ => ?_))

theorem splitOne_no (sp : Split) (ii : Nat) (id : CId) : KeepsNo (P := P) (splitOne inp sp ii id) := by
  unfold splitOne
  keep

theorem splitTwo_no (sp : Split) (ii jj : Nat) (id : CId) : KeepsNo (P := P) (splitTwo inp sp ii jj id) := by
  unfold splitTwo
  simp only
  split
  · keep
  split
  · keep
  split
  · keep
  · keep

theorem splitThree_no (sp : Split) (u : Bool) (id : CId) : KeepsNo (P := P) (splitThree inp sp u id) := by
  unfold splitThree
  simp only
  keep
  split
  · keep
  · keep

theorem outputCellsOfTriangle_no (id : CId) (t : PId × PId × PId) : KeepsNo (P := P) (outputCellsOfTriangle inp id t) := by
  intro s u s' h h1
  unfold outputCellsOfTriangle at h1
  simp only at h1
  split at h1
  · exact Triple.bind (addPass_no hd id _ _ _) (fun _ => Triple.pure ()) s u s' h h1
  · exact splitOne_no hd _ _ _ s u s' h h1
  · exact splitTwo_no hd _ _ _ _ s u s' h h1
  · exact splitThree_no hd _ _ _ s u s' h h1

theorem generateOutputCells_no : KeepsNo (P := P) (generateOutputCells inp) := by
  refine Triple.bind (modifyFilt_no _) fun _ => Triple.forEach ?_
  intro c _
  split
  · exact Triple.fail _
  · unfold actCell
    split
    · exact outputCellsOfTriangle_no hd _ _
    · exact Triple.pure ()

theorem sq3Emit_no (u : Bool) (id : CId) (a b c : PId) : KeepsNo (P := P) (sq3Emit inp u id a b c) := by
  refine Triple.bind (addPass_no hd id _ _ _) fun _ => ?_
  split
  · exact Triple.pure ()
  · exact pushChild_no _

theorem sq3Darts_no (u : Bool) (id : CId) (t : PId × PId × PId) (l : List (PId × PId)) : KeepsNo (P := P) (sq3Darts inp u id t l) := by
  induction l with
  | nil => exact Triple.pure ()
  | cons xy l ih =>
    intro s a s' h h1
    unfold sq3Darts at h1
    split at h1
    · exact Triple.bind (addPass_no hd id _ _ _) (fun _ => Triple.pure ()) s a s' h h1
    · split at h1
      · split at h1
        · exact Triple.bind (sq3Emit_no hd u id _ _ _) (fun _ => ih) s a s' h h1
        · exact Triple.bind (sq3Emit_no hd u id _ _ _) (fun _ => Triple.bind (sq3Emit_no hd u id _ _ _) fun _ =>
            Triple.bind (modifyFilt_no _) fun _ => ih) s a s' h h1
      · exact ih s a s' h h1

theorem sq3OutputCells_no : KeepsNo (P := P) (sq3OutputCells inp) := by
  refine Triple.bind (modifyFilt_no _) fun _ => Triple.forEach ?_
  intro c _
  split
  · exact Triple.fail _
  · unfold sq3Act
    split
    · exact Triple.fail _
    · split
      · intro s a s' h h1
        exact sq3Darts_no hd _ _ _ _ s a s' h h1
      · exact Triple.pure ()

end

section points
variable [Field K] [Zero P] [Add P] [SMul K P]

theorem addEdgePoint_no (inp : Mesh P D) (np : Edge → Except Fail P) (a b n : PId) : KeepsNo (P := P) (addEdgePoint inp np a b n) := by
  unfold addEdgePoint
  split
  · exact Triple.fail _
  · intro s x s' h h1
    simp only at h1
    split at h1
    · cases h1; exact h
    · exact Triple.bind (Triple.lift _) (fun p => Triple.bind (modifyFilt_no _) fun _ =>
        Triple.bind (modifyFilt_no _) fun _ => Triple.bind (modifyOut_no (g := fun o => o.setPoint n p) fun _ => rfl) fun _ =>
        Triple.pure _) s x s' h h1

theorem addThree_no (inp : Mesh P D) (np : Edge → Except Fail P) (c : Option Cell) : KeepsNo (P := P) (addThree inp np c) :=
  Triple.bind (requireTriangle_no c) fun _ => Triple.bind numberOfPoints_no fun _ =>
    Triple.bind (addEdgePoint_no inp np _ _ _) fun _ => Triple.bind (addEdgePoint_no inp np _ _ _) fun _ =>
    Triple.bind (addEdgePoint_no inp np _ _ _) fun _ => Triple.pure ()

theorem linearAddNew_no (inp : Mesh P D) (c : Option Cell) : KeepsNo (linearAddNew K inp c) :=
  Triple.bind (requireTriangle_no c) fun _ => Triple.bind numberOfPoints_no fun _ =>
    Triple.bind (getOutPoint_no _) fun _ => Triple.bind (getOutPoint_no _) fun _ => Triple.bind (getOutPoint_no _) fun _ =>
    Triple.bind (addEdgePoint_no inp _ _ _ _) fun _ => Triple.bind (addEdgePoint_no inp _ _ _ _) fun _ =>
    Triple.bind (addEdgePoint_no inp _ _ _ _) fun _ => Triple.pure ()

theorem sq3Mark_no (inp : Mesh P D) (newId : PId) (l : List (PId × PId)) : KeepsNo (P := P) (sq3Mark inp newId l) := by
  refine Triple.forEach ?_
  intro xy _
  split
  · exact Triple.pure ()
  · intro s a s' h h1
    simp only at h1
    split at h1
    · cases h1; exact h
    · exact modifyFilt_no _ s a s' h h1

theorem sq3AddNew_no (inp : Mesh P D) (c : Option Cell) : KeepsNo (P := P) (sq3AddNew K inp c) :=
  Triple.bind (requireTriangle_no c) fun _ => Triple.bind (Triple.lift _) fun _ => Triple.bind (Triple.lift _) fun _ =>
    Triple.bind (Triple.lift _) fun _ => Triple.bind numberOfPoints_no fun _ =>
    Triple.bind (modifyOut_no fun _ => rfl) fun _ => sq3Mark_no inp _ _

theorem addNewEdgePoint_no (np : Edge → Except Fail P) (e : Edge) : KeepsNo (D := D) (addNewEdgePoint np e) :=
  Triple.bind (Triple.lift _) fun _ => Triple.bind numberOfPoints_no fun _ => Triple.bind (modifyFilt_no _) fun _ =>
    Triple.bind (modifyFilt_no _) fun _ => modifyOut_no fun _ => rfl

theorem writePoints_no (val : PId → P → Except Fail P) (l : List (PId × P)) : KeepsNo (D := D) (writePoints val l) :=
  Triple.forEach fun _ _ => Triple.bind (Triple.lift _) fun _ => modifyOut_no fun _ => rfl

theorem copyPoints_no (inp : Mesh P D) : KeepsNo (copyPoints inp) := modifyOut_no fun _ => rfl

theorem loopCopy_no (cosn : Nat → K) (inp : Mesh P D) : KeepsNo (loopCopy cosn inp) := by
  refine Triple.bind (modifyOut_no fun _ => rfl) fun _ => ?_
  intro s a s' h h1
  simp only at h1
  split at h1
  · exact writePoints_no _ _ s a s' h h1
  · exact Triple.bind (Triple.lift _) (fun _ => writePoints_no _ _) s a s' h h1

theorem loopEdgeCopy_no (cosn : Nat → K) (inp : Mesh P D) : KeepsNo (loopEdgeCopy cosn inp) :=
  Triple.bind (modifyOut_no fun _ => rfl) fun _ s a s' h h1 => writePoints_no _ _ s a s' h h1

theorem generateOutputPoints_no {copy : M P D Unit} {addNew : Option Cell → M P D Unit} (inp : Mesh P D)
    (hc : KeepsNo copy) (hn : ∀ c, KeepsNo (addNew c)) : KeepsNo (P := P) (generateOutputPoints copy addNew inp) := by
  refine Triple.bind hc fun _ => Triple.bind (modifyFilt_no _) fun _ => Triple.bind (modifyFilt_no _) fun _ => ?_
  intro s a s' h h1
  simp only at h1
  split at h1
  · exact Triple.forEach (fun c _ => hn c.2) s a s' h h1
  · refine Triple.forEach (fun id _ => ?_) s a s' h h1
    split
    · exact Triple.fail _
    · exact Triple.pure ()
    · exact hn _

theorem edgeOutputPoints_no {copy : M P D Unit} {addNew : Edge → M P D Unit} (inp : Mesh P D)
    (hc : KeepsNo copy) (hn : ∀ e, KeepsNo (addNew e)) : KeepsNo (P := P) (edgeOutputPoints copy addNew inp) := by
  refine Triple.bind hc fun _ => Triple.bind (modifyFilt_no _) fun _ => Triple.bind (modifyFilt_no _) fun _ => ?_
  intro s a s' h h1
  simp only at h1
  split at h1
  · split at h1
    · exact Triple.forEach (fun e _ => hn e) s a s' h h1
    · cases h1
  · refine Triple.forEach (fun oe _ => ?_) s a s' h h1
    split
    · exact hn _
    · exact Triple.pure ()

theorem runFilter_no {lib : QELib} {gen : M P D Unit} {f f' : Filt} {out : Mesh P D} (hg : KeepsNo gen)
    (h : runFilter lib gen f = (.ok out, f')) : out.cellData = none := by
  unfold runFilter at h
  split at h
  · rename_i a s hs
    have := hg _ _ _ rfl hs
    cases h
    exact this
  · cases h

theorem cellUpdate_no {sch : Scheme} {lib : QELib} {cosn : Nat → K} {f f' : Filt} {inp out : Mesh P D}
    (hd : inp.cellData = none) (h : cellUpdate sch lib cosn f inp = (.ok out, f')) : out.cellData = none := by
  refine runFilter_no ?_ h
  cases sch with
  | linear => exact Triple.bind (generateOutputPoints_no inp (copyPoints_no inp) (linearAddNew_no inp)) fun _ => generateOutputCells_no hd
  | loop => exact Triple.bind (generateOutputPoints_no inp (loopCopy_no cosn inp) (addThree_no inp _)) fun _ => generateOutputCells_no hd
  | butterfly => exact Triple.bind (generateOutputPoints_no inp (copyPoints_no inp) (addThree_no inp _)) fun _ => generateOutputCells_no hd
  | sqrt3 => exact Triple.bind (generateOutputPoints_no inp (copyPoints_no inp) (sq3AddNew_no inp)) fun _ => sq3OutputCells_no hd

theorem edgeUpdate_no {sch : EdgeScheme} {lib : QELib} {cosn : Nat → K} {f f' : Filt} {inp out : Mesh P D}
    (hd : inp.cellData = none) (h : edgeUpdate sch lib cosn f inp = (.ok out, f')) : out.cellData = none := by
  refine runFilter_no ?_ h
  cases sch with
  | linear => exact Triple.bind (edgeOutputPoints_no inp (copyPoints_no inp) (addNewEdgePoint_no _)) fun _ => generateOutputCells_no hd
  | loop => exact Triple.bind (edgeOutputPoints_no inp (loopEdgeCopy_no cosn inp) (addNewEdgePoint_no _)) fun _ => generateOutputCells_no hd
  | butterfly => exact Triple.bind (edgeOutputPoints_no inp (copyPoints_no inp) (addNewEdgePoint_no _)) fun _ => generateOutputCells_no hd

end points

theorem condGenerate_no [Zero P] [Add P] {S ι : Type} {upd : S → List ι → Mesh P D → Except Fail (Mesh P D) × S}
    {crit : Option (Mesh P D → Prog (List ι) Unit)} {lib : QELib} {n : Nat} {c c' : Cond S ι} {inp out : Mesh P D}
    (hstep : ∀ s sel cur m s', cur.cellData = none → upd s sel cur = (.ok m, s') → m.cellData = none)
    (h : condGenerate lib upd crit n c inp = some (.ok out, c')) : out.cellData = none := by
  unfold condGenerate at h
  cases crit with
  | none => cases h
  | some crit =>
    simp only at h
    split at h
    · cases h
    · exact condLoop_inv (fun m => m.cellData = none) (fun s sel cur m s' _ h1 h2 => hstep s sel cur m s' h1 h2) rfl h

end Verif
