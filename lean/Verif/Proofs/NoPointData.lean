import Verif.Proofs.Keep
import Verif.Proofs.Conditional
/-
No run of a filter gives a mesh with point data, whatever the mesh.
-/
namespace Verif
set_option linter.unusedSectionVars false
variable {K P D : Type}

/-- the output has no point data -/
abbrev NoPointData (s : St P D) : Prop := s.out.pointData = none

/-- the program leaves an output without point data without point data -/
abbrev KeepsNoPD {α : Type} (p : M P D α) : Prop := Triple NoPointData p (fun _ => NoPointData)

theorem ensureEdge_pd (m : Mesh P D) (e : Edge) : (m.ensureEdge e).1.pointData = m.pointData := by
  unfold Mesh.ensureEdge
  split
  · rfl
  · split <;> rfl

theorem addFaceTriangle_pd (m : Mesh P D) (a b c : PId) : (m.addFaceTriangle a b c).1.pointData = m.pointData := by
  unfold Mesh.addFaceTriangle
  split
  · rfl
  split
  · rfl
  split
  · rfl
  have h1 := ensureEdge_pd m (a, b)
  rcases he1 : m.ensureEdge (a, b) with ⟨m1, _ | _⟩
  · rw [he1] at h1; exact h1
  · rw [he1] at h1
    have h2 := ensureEdge_pd m1 (b, c)
    rcases he2 : m1.ensureEdge (b, c) with ⟨m2, _ | _⟩
    · rw [he2] at h2; simp only [he2]; exact h2.trans h1
    · rw [he2] at h2
      have h3 := ensureEdge_pd m2 (c, a)
      rcases he3 : m2.ensureEdge (c, a) with ⟨m3, _ | _⟩
      · rw [he3] at h3; simp only [he2, he3]; exact h3.trans (h2.trans h1)
      · rw [he3] at h3; simp only [he2, he3]; exact h3.trans (h2.trans h1)

theorem modifyFilt_pd (g : Filt → Filt) : KeepsNoPD (P := P) (D := D) (modifyFilt g) := by
  intro s u s' h h1
  cases h1; exact h

theorem modifyOut_pd {g : Mesh P D → Mesh P D} (hg : ∀ o, (g o).pointData = o.pointData) : KeepsNoPD (modifyOut g) := by
  intro s u s' h h1
  cases h1; exact (hg _).trans h

theorem numberOfPoints_pd : KeepsNoPD (P := P) (D := D) numberOfPoints := by
  intro s u s' h h1
  cases h1; exact h

theorem getOutPoint_pd (id : PId) : KeepsNoPD (P := P) (D := D) (getOutPoint id) := by
  intro s u s' h h1
  have : s' = s := (congrArg Prod.snd h1).symm
  rw [this]; exact h

theorem requireTriangle_pd (c : Option Cell) : KeepsNoPD (P := P) (D := D) (requireTriangle c) := by
  unfold requireTriangle
  split
  · exact Triple.fail _
  · split
    · exact Triple.pure _
    · exact Triple.fail _

theorem addFace_pd (a b c : PId) : KeepsNoPD (P := P) (D := D) (addFace a b c) := by
  intro s e s' h h1
  unfold addFace at h1
  cases h1
  exact (addFaceTriangle_pd _ _ _ _).trans h

section
variable {inp : Mesh P D}

theorem passCellData_pd (id : CId) (e : Option Edge) : KeepsNoPD (P := P) (passCellData inp id e) := by
  intro s u s' h h1
  unfold passCellData at h1
  split at h1
  · cases h1; exact h
  split at h1
  · cases h1; exact h
  split at h1
  · cases h1; exact h
  split at h1 <;> (cases h1; exact h)

theorem addPass_pd (id : CId) (a b c : PId) : KeepsNoPD (P := P) (addPass inp id a b c) :=
  Triple.bind (addFace_pd a b c) fun _ => Triple.bind (passCellData_pd id _) fun _ => Triple.pure _

theorem pushChild_pd (q : Option Edge) : KeepsNoPD (P := P) (D := D) (pushChild q) := by
  intro s u s' h h1
  unfold pushChild at h1
  split at h1
  · cases h1
  · split at h1
    · cases h1
    · cases h1; exact h

theorem readEdge_pd (sp : Split) (i : Nat) : KeepsNoPD (P := P) (D := D) (sp.readEdge i) := by
  intro s u s' h h1
  unfold Split.readEdge at h1
  split at h1 <;> cases h1; exact h

local macro "keep" : tactic => `(tactic| repeat (first
  | exact Triple.pure _
  | exact Triple.fail _
  | refine Triple.bind (readEdge_pd _ _) fun _ => ?_
  | refine Triple.bind (addPass_pd _ _ _ _) fun _ => ?_
  | refine Triple.bind (pushChild_pd _) fun _ => ?_))

theorem splitOne_pd (sp : Split) (ii : Nat) (id : CId) : KeepsNoPD (P := P) (splitOne inp sp ii id) := by
  unfold splitOne
  keep

theorem splitTwo_pd (sp : Split) (ii jj : Nat) (id : CId) : KeepsNoPD (P := P) (splitTwo inp sp ii jj id) := by
  unfold splitTwo
  simp only
  split
  · keep
  split
  · keep
  split
  · keep
  · keep

theorem splitThree_pd (sp : Split) (u : Bool) (id : CId) : KeepsNoPD (P := P) (splitThree inp sp u id) := by
  unfold splitThree
  simp only
  keep
  split
  · keep
  · keep

theorem outputCellsOfTriangle_pd (id : CId) (t : PId × PId × PId) : KeepsNoPD (P := P) (outputCellsOfTriangle inp id t) := by
  intro s u s' h h1
  unfold outputCellsOfTriangle at h1
  simp only at h1
  split at h1
  · exact Triple.bind (addPass_pd id _ _ _) (fun _ => Triple.pure ()) s u s' h h1
  · exact splitOne_pd _ _ _ s u s' h h1
  · exact splitTwo_pd _ _ _ _ s u s' h h1
  · exact splitThree_pd _ _ _ s u s' h h1

theorem generateOutputCells_pd : KeepsNoPD (P := P) (generateOutputCells inp) := by
  refine Triple.bind (modifyFilt_pd _) fun _ => Triple.forEach ?_
  intro c _
  split
  · exact Triple.fail _
  · unfold actCell
    split
    · exact outputCellsOfTriangle_pd _ _
    · exact Triple.pure ()

theorem sq3Emit_pd (u : Bool) (id : CId) (a b c : PId) : KeepsNoPD (P := P) (sq3Emit inp u id a b c) := by
  refine Triple.bind (addPass_pd id _ _ _) fun _ => ?_
  split
  · exact Triple.pure ()
  · exact pushChild_pd _

theorem sq3Darts_pd (u : Bool) (id : CId) (t : PId × PId × PId) (l : List (PId × PId)) : KeepsNoPD (P := P) (sq3Darts inp u id t l) := by
  induction l with
  | nil => exact Triple.pure ()
  | cons xy l ih =>
    intro s a s' h h1
    unfold sq3Darts at h1
    split at h1
    · exact Triple.bind (addPass_pd id _ _ _) (fun _ => Triple.pure ()) s a s' h h1
    · split at h1
      · split at h1
        · exact Triple.bind (sq3Emit_pd u id _ _ _) (fun _ => ih) s a s' h h1
        · exact Triple.bind (sq3Emit_pd u id _ _ _) (fun _ => Triple.bind (sq3Emit_pd u id _ _ _) fun _ =>
            Triple.bind (modifyFilt_pd _) fun _ => ih) s a s' h h1
      · exact ih s a s' h h1

theorem sq3OutputCells_pd : KeepsNoPD (P := P) (sq3OutputCells inp) := by
  refine Triple.bind (modifyFilt_pd _) fun _ => Triple.forEach ?_
  intro c _
  split
  · exact Triple.fail _
  · unfold sq3Act
    split
    · exact Triple.fail _
    · split
      · intro s a s' h h1
        exact sq3Darts_pd _ _ _ _ s a s' h h1
      · exact Triple.pure ()

end

section points
variable [Field K] [Zero P] [Add P] [SMul K P]

theorem addEdgePoint_pd (inp : Mesh P D) (np : Edge → Except Fail P) (a b n : PId) : KeepsNoPD (P := P) (addEdgePoint inp np a b n) := by
  unfold addEdgePoint
  split
  · exact Triple.fail _
  · intro s x s' h h1
    simp only at h1
    split at h1
    · cases h1; exact h
    · exact Triple.bind (Triple.lift _) (fun p => Triple.bind (modifyFilt_pd _) fun _ =>
        Triple.bind (modifyFilt_pd _) fun _ => Triple.bind (modifyOut_pd (g := fun o => o.setPoint n p) fun _ => rfl) fun _ =>
        Triple.pure _) s x s' h h1

theorem addThree_pd (inp : Mesh P D) (np : Edge → Except Fail P) (c : Option Cell) : KeepsNoPD (P := P) (addThree inp np c) :=
  Triple.bind (requireTriangle_pd c) fun _ => Triple.bind numberOfPoints_pd fun _ =>
    Triple.bind (addEdgePoint_pd inp np _ _ _) fun _ => Triple.bind (addEdgePoint_pd inp np _ _ _) fun _ =>
    Triple.bind (addEdgePoint_pd inp np _ _ _) fun _ => Triple.pure ()

theorem linearAddNew_pd (inp : Mesh P D) (c : Option Cell) : KeepsNoPD (linearAddNew K inp c) :=
  Triple.bind (requireTriangle_pd c) fun _ => Triple.bind numberOfPoints_pd fun _ =>
    Triple.bind (getOutPoint_pd _) fun _ => Triple.bind (getOutPoint_pd _) fun _ => Triple.bind (getOutPoint_pd _) fun _ =>
    Triple.bind (addEdgePoint_pd inp _ _ _ _) fun _ => Triple.bind (addEdgePoint_pd inp _ _ _ _) fun _ =>
    Triple.bind (addEdgePoint_pd inp _ _ _ _) fun _ => Triple.pure ()

theorem sq3Mark_pd (inp : Mesh P D) (newId : PId) (l : List (PId × PId)) : KeepsNoPD (P := P) (sq3Mark inp newId l) := by
  refine Triple.forEach ?_
  intro xy _
  split
  · exact Triple.pure ()
  · intro s a s' h h1
    simp only at h1
    split at h1
    · cases h1; exact h
    · exact modifyFilt_pd _ s a s' h h1

theorem sq3AddNew_pd (inp : Mesh P D) (c : Option Cell) : KeepsNoPD (P := P) (sq3AddNew K inp c) :=
  Triple.bind (requireTriangle_pd c) fun _ => Triple.bind (Triple.lift _) fun _ => Triple.bind (Triple.lift _) fun _ =>
    Triple.bind (Triple.lift _) fun _ => Triple.bind numberOfPoints_pd fun _ =>
    Triple.bind (modifyOut_pd fun _ => rfl) fun _ => sq3Mark_pd inp _ _

theorem addNewEdgePoint_pd (np : Edge → Except Fail P) (e : Edge) : KeepsNoPD (D := D) (addNewEdgePoint np e) :=
  Triple.bind (Triple.lift _) fun _ => Triple.bind numberOfPoints_pd fun _ => Triple.bind (modifyFilt_pd _) fun _ =>
    Triple.bind (modifyFilt_pd _) fun _ => modifyOut_pd fun _ => rfl

theorem writePoints_pd (val : PId → P → Except Fail P) (l : List (PId × P)) : KeepsNoPD (D := D) (writePoints val l) :=
  Triple.forEach fun _ _ => Triple.bind (Triple.lift _) fun _ => modifyOut_pd fun _ => rfl

theorem copyPoints_pd (inp : Mesh P D) : KeepsNoPD (copyPoints inp) := modifyOut_pd fun _ => rfl

theorem loopCopy_pd (cosn : Nat → K) (inp : Mesh P D) : KeepsNoPD (loopCopy cosn inp) := by
  refine Triple.bind (modifyOut_pd fun _ => rfl) fun _ => ?_
  intro s a s' h h1
  simp only at h1
  split at h1
  · exact writePoints_pd _ _ s a s' h h1
  · exact Triple.bind (Triple.lift _) (fun _ => writePoints_pd _ _) s a s' h h1

theorem loopEdgeCopy_pd (cosn : Nat → K) (inp : Mesh P D) : KeepsNoPD (loopEdgeCopy cosn inp) :=
  Triple.bind (modifyOut_pd fun _ => rfl) fun _ s a s' h h1 => writePoints_pd _ _ s a s' h h1

theorem generateOutputPoints_pd {copy : M P D Unit} {addNew : Option Cell → M P D Unit} (inp : Mesh P D)
    (hc : KeepsNoPD copy) (hn : ∀ c, KeepsNoPD (addNew c)) : KeepsNoPD (P := P) (generateOutputPoints copy addNew inp) := by
  refine Triple.bind hc fun _ => Triple.bind (modifyFilt_pd _) fun _ => Triple.bind (modifyFilt_pd _) fun _ => ?_
  intro s a s' h h1
  simp only at h1
  split at h1
  · exact Triple.forEach (fun c _ => hn c.2) s a s' h h1
  · refine Triple.forEach (fun id _ => ?_) s a s' h h1
    split
    · exact Triple.fail _
    · exact Triple.pure ()
    · exact hn _

theorem edgeOutputPoints_pd {copy : M P D Unit} {addNew : Edge → M P D Unit} (inp : Mesh P D)
    (hc : KeepsNoPD copy) (hn : ∀ e, KeepsNoPD (addNew e)) : KeepsNoPD (P := P) (edgeOutputPoints copy addNew inp) := by
  refine Triple.bind hc fun _ => Triple.bind (modifyFilt_pd _) fun _ => Triple.bind (modifyFilt_pd _) fun _ => ?_
  intro s a s' h h1
  simp only at h1
  split at h1
  · split at h1
    · exact Triple.forEach (fun e _ => hn e) s a s' h h1
    · cases h1
  · refine Triple.forEach (fun oe _ => ?_) s a s' h h1
    split
    · exact hn _
    · exact Triple.pure ()

theorem runFilter_pd {lib : QELib} {gen : M P D Unit} {f f' : Filt} {out : Mesh P D} (hg : KeepsNoPD gen)
    (h : runFilter lib gen f = (.ok out, f')) : out.pointData = none := by
  unfold runFilter at h
  split at h
  · rename_i a s hs
    have := hg _ _ _ rfl hs
    cases h
    exact this
  · cases h

theorem cellUpdate_pd {sch : Scheme} {lib : QELib} {cosn : Nat → K} {f f' : Filt} {inp out : Mesh P D}
    (h : cellUpdate sch lib cosn f inp = (.ok out, f')) : out.pointData = none := by
  refine runFilter_pd ?_ h
  cases sch with
  | linear => exact Triple.bind (generateOutputPoints_pd inp (copyPoints_pd inp) (linearAddNew_pd inp)) fun _ => generateOutputCells_pd
  | loop => exact Triple.bind (generateOutputPoints_pd inp (loopCopy_pd cosn inp) (addThree_pd inp _)) fun _ => generateOutputCells_pd
  | butterfly => exact Triple.bind (generateOutputPoints_pd inp (copyPoints_pd inp) (addThree_pd inp _)) fun _ => generateOutputCells_pd
  | sqrt3 => exact Triple.bind (generateOutputPoints_pd inp (copyPoints_pd inp) (sq3AddNew_pd inp)) fun _ => sq3OutputCells_pd

theorem edgeUpdate_pd {sch : EdgeScheme} {lib : QELib} {cosn : Nat → K} {f f' : Filt} {inp out : Mesh P D}
    (h : edgeUpdate sch lib cosn f inp = (.ok out, f')) : out.pointData = none := by
  refine runFilter_pd ?_ h
  cases sch with
  | linear => exact Triple.bind (edgeOutputPoints_pd inp (copyPoints_pd inp) (addNewEdgePoint_pd _)) fun _ => generateOutputCells_pd
  | loop => exact Triple.bind (edgeOutputPoints_pd inp (loopEdgeCopy_pd cosn inp) (addNewEdgePoint_pd _)) fun _ => generateOutputCells_pd
  | butterfly => exact Triple.bind (edgeOutputPoints_pd inp (copyPoints_pd inp) (addNewEdgePoint_pd _)) fun _ => generateOutputCells_pd

end points

theorem condGenerate_pd [Zero P] [Add P] {S ι : Type} {upd : S → List ι → Mesh P D → Except Fail (Mesh P D) × S}
    {crit : Option (Mesh P D → Prog (List ι) Unit)} {lib : QELib} {n : Nat} {c c' : Cond S ι} {inp out : Mesh P D}
    (hstep : ∀ s sel cur m s', upd s sel cur = (.ok m, s') → m.pointData = none)
    (h : condGenerate lib upd crit n c inp = some (.ok out, c')) : out.pointData = none := by
  unfold condGenerate at h
  cases crit with
  | none => cases h
  | some crit =>
    simp only at h
    split at h
    · cases h
    · exact condLoop_inv (fun m => m.pointData = none) (fun s sel cur m s' _ _ h2 => hstep s sel cur m s' h2) rfl h

end Verif
