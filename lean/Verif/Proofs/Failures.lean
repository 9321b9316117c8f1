import Verif.Proofs.Hoare
/-
The point phase on meshes that need not consist of triangles.
-/
namespace Verif
set_option linter.unusedSectionVars false
variable {K P D : Type} [Field K] [Zero P] [Add P] [SMul K P]

namespace AMap
variable {α : Type}

theorem isSome_set {m : AMap α} {k k' : Nat} {v : α} (h : (m.find? k').isSome) : ((m.set k v).find? k').isSome := by
  rw [find?_set]; split <;> simp [h]

theorem isSome_foldl_set (l : AMap α) (m : AMap α) {k : Nat} (h : (m.find? k).isSome ∨ (l.find? k).isSome) :
    ((l.foldl (fun m kp => m.set kp.1 kp.2) m).find? k).isSome := by
  induction l generalizing m with
  | nil => rcases h with h | h
           · exact h
           · cases h
  | cons x l ih =>
    refine ih _ ?_
    rcases h with h | h
    · exact Or.inl (isSome_set h)
    · unfold find? at h
      split at h
      · rename_i hk; left; rw [find?_set]; simp [hk]
      · exact Or.inr h

end AMap

/-- the output has all the points of the input -/
def HasAll (inp : Mesh P D) (s : St P D) : Prop := ∀ v, (inp.pos v).isSome → (s.out.points.find? v).isSome

theorem Mesh.getPoint_some {m : Mesh P D} {v : PId} (h : (m.pos v).isSome) : ∃ p, m.getPoint v = .ok p := by
  obtain ⟨p, hp⟩ := Option.isSome_iff_exists.1 h
  exact ⟨p, by unfold Mesh.getPoint; rw [show m.points.find? v = some p from hp]⟩

theorem getPoint_err {Q : Fail → Prop} (hu : ∀ u, Q (.ub u)) (m : Mesh P D) (v : PId) : ErrIn Q (m.getPoint v) := by
  unfold Mesh.getPoint
  split
  · exact ErrIn.ok _
  · exact ErrIn.err (hu _)

section arbitrary
/- failures on arbitrary meshes -/
variable {Q : Fail → Prop} (hu : ∀ u, Q (.ub u))
include hu

theorem destOrZero_err (m : Mesh P D) (e : Option Edge) : ErrIn Q (destOrZero m e) := by
  cases e with
  | none => exact ErrIn.ok _
  | some e => exact getPoint_err hu m _

theorem linearPoint_err (m : Mesh P D) (e : Edge) : ErrIn Q (linearPoint K m e) :=
  (getPoint_err hu m _).bind fun _ => (getPoint_err hu m _).bind fun _ => ErrIn.ok _

theorem loopPoint_err (hw : Q (.exc .wireEdge)) (m : Mesh P D) (e : Edge) : ErrIn Q (loopPoint K m e) := by
  unfold loopPoint
  split
  · exact (getPoint_err hu m _).bind fun _ => (getPoint_err hu m _).bind fun _ => (destOrZero_err hu m _).bind fun _ =>
      (destOrZero_err hu m _).bind fun _ => ErrIn.ok _
  split
  · exact (getPoint_err hu m _).bind fun _ => (getPoint_err hu m _).bind fun _ => ErrIn.ok _
  · exact ErrIn.err hw

theorem butterflyPoint_err (m : Mesh P D) (e : Edge) : ErrIn Q (butterflyPoint K m e) :=
  (getPoint_err hu m _).bind fun _ => (getPoint_err hu m _).bind fun _ => (destOrZero_err hu m _).bind fun _ =>
    (destOrZero_err hu m _).bind fun _ => (destOrZero_err hu m _).bind fun _ => (destOrZero_err hu m _).bind fun _ =>
    (destOrZero_err hu m _).bind fun _ => (destOrZero_err hu m _).bind fun _ => ErrIn.ok _

theorem sumFrom_err (m : Mesh P D) (acc : P) (es : List Edge) : ErrIn Q (sumFrom m acc es) := by
  induction es generalizing acc with
  | nil => exact ErrIn.ok _
  | cons e es ih => exact (getPoint_err hu m _).bind fun _ => ih _

theorem sumDest_err (m : Mesh P D) (es : List Edge) : ErrIn Q (sumDest m es) := sumFrom_err hu m 0 es

theorem ringFrom_err (hh : Q .hang) (m : Mesh P D) (st : Edge) (n : Nat) (e : Edge) : ErrIn Q (ringFrom m st n e) := by
  induction n generalizing e with
  | zero => exact ErrIn.err hh
  | succ n ih =>
    unfold ringFrom
    split
    · exact ErrIn.err (hu _)
    · split
      · exact ErrIn.ok _
      · exact (ih _).map

theorem smoothingPoint_err (hh : Q .hang) (cosn : Nat → K) (m : Mesh P D) (v : PId) (p : P) :
    ErrIn Q (smoothingPoint cosn m v p) := by
  unfold smoothingPoint
  split
  · exact ErrIn.err (hu _)
  · refine (ringFrom_err hu hh m _ _ _).bind fun _ => (sumDest_err hu m _).bind fun _ => (sumDest_err hu m _).bind fun _ => ?_
    split <;> exact ErrIn.ok _

theorem loopEdgeWalk_err (hh : Q .hang) (m : Mesh P D) (sel : List (Option Edge)) (st : Edge) (n : Nat) (q0 : Edge)
    (q1 : Option Edge) : ErrIn Q (loopEdgeWalk m sel st n q0 q1) := by
  induction n generalizing q0 q1 with
  | zero => exact ErrIn.err hh
  | succ n ih =>
    unfold loopEdgeWalk
    split
    · exact ErrIn.ok _
    split
    · exact ErrIn.ok _
    split
    · exact ErrIn.err (hu _)
    · exact ih _ _

theorem loopEdgeValue_err (hh : Q .hang) (cosn : Nat → K) (m : Mesh P D) (sel : List (Option Edge)) (v : PId) (p : P) :
    ErrIn Q (loopEdgeValue cosn m sel v p) := by
  unfold loopEdgeValue
  split
  · exact ErrIn.err (hu _)
  · refine (loopEdgeWalk_err hu hh m sel _ _ _ _).bind fun _ => ?_
    split
    · exact ErrIn.ok _
    · refine (getPoint_err hu m _).bind fun _ => (ringFrom_err hu hh m _ _ _).bind fun _ => (sumDest_err hu m _).bind fun _ =>
        (sumDest_err hu m _).bind fun _ => ?_
      split <;> exact ErrIn.ok _

theorem loopSmoothSet_err (m : Mesh P D) (l : List CId) : ErrIn Q (loopSmoothSet m l) := by
  induction l with
  | nil => exact ErrIn.ok _
  | cons k l ih =>
    unfold loopSmoothSet
    split
    · exact ErrIn.err (hu _)
    · exact ErrIn.err (hu _)
    · exact ih.map

end arbitrary

theorem writePoints_hoare {Q : Fail → Prop} {f : Filt} {val : PId → P → Except Fail P} (l : AMap P)
    (hv : ∀ kp ∈ l, ErrIn Q (val kp.1 kp.2)) (done : PId → Prop) :
    Hoare (fun s : St P D => s.filt = f ∧ ∀ v, done v → (s.out.points.find? v).isSome) Q
      (fun _ s => s.filt = f ∧ ∀ v, done v ∨ (l.find? v).isSome → (s.out.points.find? v).isSome) (writePoints val l) := by
  induction l generalizing done with
  | nil => exact Hoare.pure fun s hs => ⟨hs.1, fun v hv => hv.elim (hs.2 v) fun h => nomatch h⟩
  | cons kp l ih =>
    refine Hoare.bind (Mid := fun _ s => s.filt = f ∧ ∀ v, (done v ∨ v = kp.1) → (s.out.points.find? v).isSome) ?_ fun _ => ?_
    · refine Hoare.bind (Hoare.lift (hv kp (by simp))) fun p => ?_
      rintro s ⟨-, h1, h2⟩
      refine ⟨h1, fun v hv => ?_⟩
      simp only [Mesh.setPoint]
      rcases hv with hv | rfl
      · exact AMap.isSome_set (h2 v hv)
      · rw [AMap.find?_set]; simp
    · refine (ih (fun kp h => hv kp (by simp [h])) (fun v => done v ∨ v = kp.1)).mono (fun _ h => h) (fun _ h => h) ?_
      rintro _ s ⟨h1, h2⟩
      refine ⟨h1, fun v hv => h2 v ?_⟩
      rcases hv with hv | hv
      · exact Or.inl (Or.inl hv)
      · unfold AMap.find? at hv
        split at hv
        · rename_i h; exact Or.inl (Or.inr h)
        · exact Or.inr hv

theorem copyPoints_hoare (inp : Mesh P D) (f : Filt) (Q : Fail → Prop) :
    Hoare (fun s : St P D => s = ⟨f, Mesh.empty⟩) Q (fun _ s => s.filt = f ∧ HasAll inp s) (copyPoints inp) := by
  rintro s rfl
  exact ⟨rfl, fun v hv => AMap.isSome_foldl_set _ _ (Or.inr hv)⟩

theorem loopCopy_hoare (cosn : Nat → K) (inp : Mesh P D) (f : Filt) {Q : Fail → Prop}
    (hs : ∀ kp ∈ inp.points, ErrIn Q (smoothingPoint cosn inp kp.1 kp.2)) (hset : ErrIn Q (loopSmoothSet inp f.cells)) :
    Hoare (fun s : St P D => s = ⟨f, Mesh.empty⟩) Q (fun _ s => s.filt = f ∧ HasAll inp s) (loopCopy cosn inp) := by
  refine Hoare.bind (Mid := fun _ s => s.filt = f ∧ ∀ v, False → (s.out.points.find? v).isSome) ?_ fun _ => ?_
  · rintro s rfl
    exact ⟨rfl, fun _ h => h.elim⟩
  · intro s hs0
    simp only
    have fin : ∀ val, (∀ kp ∈ inp.points, ErrIn Q (val kp.1 kp.2)) →
        Hoare (fun s : St P D => s.filt = f ∧ ∀ v, False → (s.out.points.find? v).isSome) Q
        (fun _ s => s.filt = f ∧ HasAll inp s) (writePoints val inp.points) := fun val hval =>
      (writePoints_hoare inp.points hval _).mono (fun _ h => h) (fun _ h => h)
        fun _ _ h => ⟨h.1, fun v hv => h.2 v (Or.inr hv)⟩
    split
    · exact fin _ hs s hs0
    · rw [hs0.1]
      refine Hoare.bind (Pre := fun s : St P D => s.filt = f ∧ ∀ v, False → (s.out.points.find? v).isSome)
        (Hoare.lift hset) (fun set => ?_) s hs0
      refine (fin _ ?_).mono (fun _ h => h.2) (fun _ h => h) fun _ _ h => h
      intro kp hkp
      split
      · exact hs kp hkp
      · exact ErrIn.ok _

theorem loopEdgeCopy_hoare (cosn : Nat → K) (inp : Mesh P D) (f : Filt) {Q : Fail → Prop}
    (hs : ∀ kp ∈ inp.points, ErrIn Q (loopEdgeValue cosn inp f.edgeSel kp.1 kp.2)) :
    Hoare (fun s : St P D => s = ⟨f, Mesh.empty⟩) Q (fun _ s => s.filt = f ∧ HasAll inp s) (loopEdgeCopy cosn inp) := by
  refine Hoare.bind (Mid := fun _ s => s.filt = f ∧ ∀ v, False → (s.out.points.find? v).isSome) ?_ fun _ => ?_
  · rintro s rfl
    exact ⟨rfl, fun _ h => h.elim⟩
  · intro s hs0
    have := hs0.1
    simp only [this]
    exact (writePoints_hoare inp.points hs _).mono (fun _ h => h) (fun _ h => h)
        (fun _ _ h => ⟨h.1, fun v hv => h.2 v (Or.inr hv)⟩) s hs0

/-- the point phase: the copy, then the loop over all cells or over the listed ones -/
theorem generateOutputPoints_hoare {inp : Mesh P D} {f : Filt} {Q : Fail → Prop} {copy : M P D Unit}
    {addNew : Option Cell → M P D Unit}
    (hcopy : Hoare (fun s : St P D => s = ⟨f, Mesh.empty⟩) Q (fun _ s => s.filt = f ∧ HasAll inp s) copy)
    (hall : f.cells = [] → ∀ c ∈ inp.cells, Hoare (HasAll inp) Q (fun _ => HasAll inp) (addNew c.2))
    (hmiss : ∀ k ∈ f.cells, inp.cells.find? k = none → Q (.ub .missingKey))
    (hsel : ∀ k ∈ f.cells, ∀ c, inp.cells.find? k = some (some c) →
      Hoare (HasAll inp) Q (fun _ => HasAll inp) (addNew (some c))) :
    Hoare (fun s : St P D => s = ⟨f, Mesh.empty⟩) Q (fun _ s => HasAll inp s) (generateOutputPoints copy addNew inp) := by
  refine Hoare.bind hcopy fun _ => ?_
  refine Hoare.bind (Mid := fun _ s => s.filt.cells = f.cells ∧ HasAll inp s) (fun s hs => ⟨by rw [← hs.1], hs.2⟩) fun _ => ?_
  refine Hoare.bind (Mid := fun _ s => (s.filt.cells = f.cells ∧ s.filt.uniform = f.cells.isEmpty) ∧ HasAll inp s)
    (fun s hs => ⟨⟨hs.1, by rw [← hs.1]⟩, hs.2⟩) fun _ => ?_
  rintro s ⟨⟨h1, h2⟩, h3⟩
  simp only [h2, h1]
  split
  · rename_i he
    exact Hoare.forEach (hall (by simpa using he)) s h3
  · refine Hoare.forEach (fun k hk => ?_) s h3
    split
    · rename_i h; exact Hoare.fail (hmiss k hk h)
    · exact Hoare.pure fun _ h => h
    · rename_i c h; exact hsel k hk c h

theorem edgeOutputPoints_hoare {inp : Mesh P D} {f : Filt} {Q : Fail → Prop} {copy : M P D Unit}
    {addNew : Edge → M P D Unit}
    (hcopy : Hoare (fun s : St P D => s = ⟨f, Mesh.empty⟩) Q (fun _ s => s.filt = f ∧ HasAll inp s) copy)
    (hne : Q (.exc .noEdges)) (hnew : ∀ e, Hoare (HasAll inp) Q (fun _ => HasAll inp) (addNew e)) :
    Hoare (fun s : St P D => s = ⟨f, Mesh.empty⟩) Q (fun _ s => HasAll inp s) (edgeOutputPoints copy addNew inp) := by
  refine Hoare.bind hcopy fun _ => ?_
  refine Hoare.bind (Mid := fun _ s => HasAll inp s) (fun s hs => hs.2) fun _ => ?_
  refine Hoare.bind (Mid := fun _ s => HasAll inp s) (fun s hs => hs) fun _ => ?_
  intro s hs
  simp only
  split
  · split
    · exact Hoare.forEach (fun e _ => hnew e) s hs
    · exact hne
  · refine Hoare.forEach (fun oe _ => ?_) s hs
    split
    · exact hnew _
    · exact Hoare.pure fun _ h => h

theorem setPoint_hasAll {inp : Mesh P D} {s : St P D} (h : HasAll inp s) (n : PId) (p : P) :
    HasAll inp ⟨s.filt, s.out.setPoint n p⟩ := fun v hv => AMap.isSome_set (h v hv)

theorem addEdgePoint_hoare {inp : Mesh P D} {np : Edge → Except Fail P} {Q : Fail → Prop} {x y : PId}
    (hE : inp.hasEdge (x, y) = true ∨ ∀ u, Q (.ub u)) (hnp : ErrIn Q (np (x, y))) (n : PId) :
    Hoare (HasAll inp) Q (fun _ => HasAll inp) (addEdgePoint inp np x y n) := by
  unfold addEdgePoint Mesh.findEdge
  by_cases h : inp.hasEdge (x, y) = true
  · rw [if_pos h]
    intro s hs
    simp only
    split
    · exact hs
    · refine Hoare.bind (Hoare.lift hnp) (fun p => ?_) s hs
      rintro s ⟨-, hs⟩
      exact setPoint_hasAll (s := s) hs n p
  · rw [if_neg h]
    exact Hoare.fail (hE.resolve_left h _)

theorem requireTriangle_hoare {inp : Mesh P D} {Q : Fail → Prop} {c : Option Cell} (h1 : c = none → Q (.ub .nullDeref))
    (h2 : c.isSome → Cell.tri? c = none → Q (.exc .notTriangle)) :
    Hoare (HasAll inp) Q (fun t s => Cell.tri? c = some t ∧ HasAll inp s) (requireTriangle c) := by
  unfold requireTriangle
  rw [asTriangle_eq]
  cases c with
  | none => exact Hoare.fail (h1 rfl)
  | some x =>
    simp only
    cases ht : Cell.tri? (some x) with
    | none => exact Hoare.fail (h2 rfl ht)
    | some t => exact Hoare.pure fun s hs => ⟨rfl, hs⟩

section addNew
variable {inp : Mesh P D} {Q : Fail → Prop} {c : Option Cell} (h1 : c = none → Q (.ub .nullDeref))
  (h2 : c.isSome → Cell.tri? c = none → Q (.exc .notTriangle))
include h1 h2

theorem addThree_hoare {np : Edge → Except Fail P}
    (hE : ∀ t, Cell.tri? c = some t → ∀ e ∈ t.darts, (inp.hasEdge e = true ∨ ∀ u, Q (.ub u)) ∧ ErrIn Q (np e)) :
    Hoare (HasAll inp) Q (fun _ => HasAll inp) (addThree inp np c) := by
  refine Hoare.bind (requireTriangle_hoare h1 h2) fun t => ?_
  rintro s ⟨ht, hs⟩
  have d := hE t ht
  refine Hoare.bind (Mid := fun _ => HasAll inp) (fun _ h => h) (fun n => ?_) s hs
  refine Hoare.bind (addEdgePoint_hoare (d (t.1, t.2.1) (by simp [Tri.darts])).1 (d _ (by simp [Tri.darts])).2 _) fun n => ?_
  refine Hoare.bind (addEdgePoint_hoare (d (t.2.1, t.2.2) (by simp [Tri.darts])).1 (d _ (by simp [Tri.darts])).2 _) fun n => ?_
  refine Hoare.bind (addEdgePoint_hoare (d (t.2.2, t.1) (by simp [Tri.darts])).1 (d _ (by simp [Tri.darts])).2 _) fun n => ?_
  exact Hoare.pure fun _ h => h

theorem getOutPoint_hoare {v : PId} (h : (inp.pos v).isSome ∨ ∀ u, Q (.ub u)) :
    Hoare (HasAll inp) Q (fun _ => HasAll inp) (getOutPoint v : M P D P) := by
  intro s hs
  unfold getOutPoint
  rcases hg : s.out.getPoint v with e | p
  · rcases h with h | h
    · obtain ⟨p, hp⟩ := Mesh.getPoint_some (m := s.out) (hs v h)
      rw [hp] at hg; cases hg
    · exact getPoint_err h s.out v e hg
  · exact hs

theorem linearAddNew_hoare
    (hE : ∀ t, Cell.tri? c = some t → ∀ e ∈ t.darts,
      (inp.hasEdge e = true ∨ ∀ u, Q (.ub u)) ∧ ((inp.pos e.1).isSome ∨ ∀ u, Q (.ub u))) :
    Hoare (HasAll inp) Q (fun _ => HasAll inp) (linearAddNew K inp c) := by
  refine Hoare.bind (requireTriangle_hoare h1 h2) fun t => ?_
  rintro s ⟨ht, hs⟩
  have d := hE t ht
  refine Hoare.bind (Mid := fun _ => HasAll inp) (fun _ h => h) (fun n => ?_) s hs
  refine Hoare.bind (getOutPoint_hoare h1 h2 (d (t.1, t.2.1) (by simp [Tri.darts])).2) fun pa => ?_
  refine Hoare.bind (getOutPoint_hoare h1 h2 (d (t.2.1, t.2.2) (by simp [Tri.darts])).2) fun pb => ?_
  refine Hoare.bind (getOutPoint_hoare h1 h2 (d (t.2.2, t.1) (by simp [Tri.darts])).2) fun pc => ?_
  refine Hoare.bind (addEdgePoint_hoare (d (t.1, t.2.1) (by simp [Tri.darts])).1 (ErrIn.ok _) _) fun n => ?_
  refine Hoare.bind (addEdgePoint_hoare (d (t.2.1, t.2.2) (by simp [Tri.darts])).1 (ErrIn.ok _) _) fun n => ?_
  refine Hoare.bind (addEdgePoint_hoare (d (t.2.2, t.1) (by simp [Tri.darts])).1 (ErrIn.ok _) _) fun n => ?_
  exact Hoare.pure fun _ h => h

theorem sq3AddNew_hoare
    (hE : ∀ t, Cell.tri? c = some t → ∀ e ∈ t.darts, ((inp.pos e.1).isSome ∨ ∀ u, Q (.ub u))) :
    Hoare (HasAll inp) Q (fun _ => HasAll inp) (sq3AddNew K inp c) := by
  refine Hoare.bind (requireTriangle_hoare h1 h2) fun t => ?_
  rintro s ⟨ht, hs⟩
  have d : ∀ e ∈ Tri.darts t, ErrIn Q (inp.getPoint e.1) := fun e he =>
    (hE t ht e he).elim (fun h => ErrIn.of_ok (Mesh.getPoint_some h)) fun h => getPoint_err h _ _
  refine Hoare.bind (Hoare.lift (d (t.1, t.2.1) (by simp [Tri.darts]))) (fun pa => ?_) s hs
  refine Hoare.bind (Hoare.lift (d (t.2.1, t.2.2) (by simp [Tri.darts]))) fun pb => ?_
  refine Hoare.bind (Hoare.lift (d (t.2.2, t.1) (by simp [Tri.darts]))) fun pc => ?_
  rintro s ⟨-, -, -, hs⟩
  refine Hoare.bind (Mid := fun _ => HasAll inp) (fun _ h => h) (fun n => ?_) s hs
  refine Hoare.bind (Mid := fun _ => HasAll inp) (fun s h => setPoint_hasAll (s := s) h n _) fun _ => ?_
  refine Hoare.forEach fun xy _ => ?_
  split
  · exact Hoare.pure fun _ h => h
  · intro s hs
    simp only
    split
    · exact hs
    · exact hs

end addNew

theorem addNewEdgePoint_hoare {inp : Mesh P D} {np : Edge → Except Fail P} {Q : Fail → Prop} {e : Edge}
    (hnp : ErrIn Q (np e)) : Hoare (HasAll inp) Q (fun _ => HasAll inp) (addNewEdgePoint np e : M P D Unit) := by
  refine Hoare.bind (Hoare.lift hnp) fun p => ?_
  rintro s ⟨-, hs⟩
  exact setPoint_hasAll (s := s) hs _ p

/-- the two phases of `GenerateData` -/
def cellPoints (sch : Scheme) (cosn : Nat → K) (inp : Mesh P D) : M P D Unit :=
  match sch with
  | .linear => generateOutputPoints (copyPoints inp) (linearAddNew K inp) inp
  | .loop => generateOutputPoints (loopCopy cosn inp) (loopAddNew K inp) inp
  | .butterfly => generateOutputPoints (copyPoints inp) (butterflyAddNew K inp) inp
  | .sqrt3 => generateOutputPoints (copyPoints inp) (sq3AddNew K inp) inp

def cellCells (sch : Scheme) (inp : Mesh P D) : M P D Unit :=
  match sch with
  | .sqrt3 => sq3OutputCells inp
  | _ => generateOutputCells inp

theorem cellGenerate_phases (sch : Scheme) (cosn : Nat → K) (inp : Mesh P D) :
    cellGenerate sch cosn inp = generateData (cellPoints sch cosn inp) (cellCells sch inp) := by
  cases sch <;> rfl

def edgePoints (sch : EdgeScheme) (cosn : Nat → K) (inp : Mesh P D) : M P D Unit :=
  match sch with
  | .linear => edgeOutputPoints (copyPoints inp) (addNewEdgePoint (linearPoint K inp)) inp
  | .loop => edgeOutputPoints (loopEdgeCopy cosn inp) (addNewEdgePoint (loopPoint K inp)) inp
  | .butterfly => edgeOutputPoints (copyPoints inp) (addNewEdgePoint (butterflyPoint K inp)) inp

theorem edgeGenerate_phases (sch : EdgeScheme) (cosn : Nat → K) (inp : Mesh P D) :
    edgeGenerate sch cosn inp = generateData (edgePoints sch cosn inp) (generateOutputCells inp) := by
  cases sch <;> rfl

theorem cellCells_hoare (sch : Scheme) (inp : Mesh P D) :
    Hoare (fun _ => True) IsUBorHang (fun _ _ => True) (cellCells sch inp) := by
  cases sch
  · exact generateOutputCells_hoare inp
  · exact generateOutputCells_hoare inp
  · exact generateOutputCells_hoare inp
  · exact sq3OutputCells_hoare inp

theorem cellCells_ok_inv {sch : Scheme} {inp : Mesh P D} {s : St P D} (h : (cellCells sch inp s).1 = .ok ()) :
    inp.AllTriangles := by
  cases sch
  · exact generateOutputCells_ok_inv h
  · exact generateOutputCells_ok_inv h
  · exact generateOutputCells_ok_inv h
  · exact sq3OutputCells_ok_inv h

/-- the point phase of a cell filter on an arbitrary mesh -/
theorem cellPoints_any (sch : Scheme) (cosn : Nat → K) (inp : Mesh P D) (f : Filt) {Q : Fail → Prop}
    (hu : ∀ u, Q (.ub u)) (hh : Q .hang) (hw : Q (.exc .wireEdge))
    (hall : f.cells = [] → ∀ c ∈ inp.cells, c.2.isSome → Cell.tri? c.2 = none → Q (.exc .notTriangle))
    (hsel : ∀ k ∈ f.cells, ∀ c, inp.cells.find? k = some (some c) → Cell.tri? (some c) = none → Q (.exc .notTriangle)) :
    Hoare (fun s : St P D => s = ⟨f, Mesh.empty⟩) Q (fun _ s => HasAll inp s) (cellPoints sch cosn inp) := by
  have three : ∀ np : Edge → Except Fail P, (∀ e, ErrIn Q (np e)) →
      ∀ c : Option Cell, (c.isSome → Cell.tri? c = none → Q (.exc .notTriangle)) →
      Hoare (HasAll inp) Q (fun _ => HasAll inp) (addThree inp np c) := fun np hnp c hc =>
    addThree_hoare (fun _ => hu _) hc fun t _ e _ => ⟨Or.inr hu, hnp e⟩
  cases sch with
  | linear =>
    refine generateOutputPoints_hoare (copyPoints_hoare inp f Q) (fun h c hc => ?_) (fun _ _ _ => hu _) (fun k hk c hc => ?_)
    · exact linearAddNew_hoare (fun _ => hu _) (hall h c hc) fun t _ e _ => ⟨Or.inr hu, Or.inr hu⟩
    · exact linearAddNew_hoare (fun _ => hu _) (fun _ => hsel k hk c hc) fun t _ e _ => ⟨Or.inr hu, Or.inr hu⟩
  | loop =>
    refine generateOutputPoints_hoare (loopCopy_hoare cosn inp f (fun _ _ => smoothingPoint_err hu hh cosn inp _ _)
      (loopSmoothSet_err hu inp _)) (fun h c hc => ?_) (fun _ _ _ => hu _) (fun k hk c hc => ?_)
    · exact three _ (loopPoint_err hu hw inp) _ (hall h c hc)
    · exact three _ (loopPoint_err hu hw inp) _ fun _ => hsel k hk c hc
  | butterfly =>
    refine generateOutputPoints_hoare (copyPoints_hoare inp f Q) (fun h c hc => ?_) (fun _ _ _ => hu _) (fun k hk c hc => ?_)
    · exact three _ (butterflyPoint_err hu inp) _ (hall h c hc)
    · exact three _ (butterflyPoint_err hu inp) _ fun _ => hsel k hk c hc
  | sqrt3 =>
    refine generateOutputPoints_hoare (copyPoints_hoare inp f Q) (fun h c hc => ?_) (fun _ _ _ => hu _) (fun k hk c hc => ?_)
    · exact sq3AddNew_hoare (fun _ => hu _) (hall h c hc) fun t _ e _ => Or.inr hu
    · exact sq3AddNew_hoare (fun _ => hu _) (fun _ => hsel k hk c hc) fun t _ e _ => Or.inr hu

/-- the point phase of an edge filter on an arbitrary mesh -/
theorem edgePoints_any (sch : EdgeScheme) (cosn : Nat → K) (inp : Mesh P D) (f : Filt) {Q : Fail → Prop}
    (hu : ∀ u, Q (.ub u)) (hh : Q .hang) (hw : Q (.exc .wireEdge)) (hne : Q (.exc .noEdges)) :
    Hoare (fun s : St P D => s = ⟨f, Mesh.empty⟩) Q (fun _ s => HasAll inp s) (edgePoints sch cosn inp) := by
  cases sch with
  | linear => exact edgeOutputPoints_hoare (copyPoints_hoare inp f Q) hne fun e => addNewEdgePoint_hoare (linearPoint_err hu inp e)
  | loop =>
    exact edgeOutputPoints_hoare (loopEdgeCopy_hoare cosn inp f fun _ _ => loopEdgeValue_err hu hh cosn inp _ _ _) hne
      fun e => addNewEdgePoint_hoare (loopPoint_err hu hw inp e)
  | butterfly =>
    exact edgeOutputPoints_hoare (copyPoints_hoare inp f Q) hne fun e => addNewEdgePoint_hoare (butterflyPoint_err hu inp e)

section mixed
variable {inp : Mesh P D}

theorem hasEdge_of_isEdge {e : Edge} (h : inp.IsEdge e) : inp.hasEdge e = true := by
  unfold Mesh.hasEdge
  rw [Bool.or_eq_true, List.contains_iff_mem, List.contains_iff_mem]
  exact h

namespace Mesh.Mixed
variable (hm : inp.Mixed)
include hm

theorem getPoint_fst {e : Edge} (he : inp.IsEdge e) : ∃ p, inp.getPoint e.1 = .ok p :=
  Mesh.getPoint_some (hm.edge_pos e he)

theorem getPoint_snd {e : Edge} (he : inp.IsEdge e) : ∃ p, inp.getPoint e.2 = .ok p :=
  Mesh.getPoint_some (hm.edge_pos _ he.sym)

theorem loopPoint_ok (hr : inp.RingOK) {e : Edge} (he : inp.IsEdge e) (hl : inp.leftSet e = true) :
    ∃ p, loopPoint K inp e = .ok p := by
  obtain ⟨p0, h0⟩ := hm.getPoint_fst he
  obtain ⟨p1, h1⟩ := hm.getPoint_snd he
  unfold loopPoint
  rw [h0, h1]
  split
  · obtain ⟨e2, h2, g2⟩ := hr.lnext_some he
    obtain ⟨e3, h3, g3⟩ := hr.rprev_some he
    obtain ⟨p2, k2⟩ := hm.getPoint_snd g2
    obtain ⟨p3, k3⟩ := hm.getPoint_snd g3
    rw [h2, h3]
    simp only [destOrZero, k2, k3]
    exact ⟨_, rfl⟩
  · rename_i hi
    have : inp.isAtBorder e = true := by
      simp only [Mesh.isInternal, hl, Bool.true_and, Bool.not_eq_true] at hi
      simp [Mesh.isAtBorder, hl, hi]
    rw [if_pos this]
    exact ⟨_, rfl⟩

theorem butterflyPoint_ok (hr : inp.RingOK) {e : Edge} (he : inp.IsEdge e) : ∃ p, butterflyPoint K inp e = .ok p := by
  obtain ⟨e2, h2, g2⟩ := hr.lnext_some he
  obtain ⟨e4, h4, g4⟩ := hr.rprev_some g2
  obtain ⟨e3, h3, g3⟩ := hr.rprev_some he
  obtain ⟨e5, h5, g5⟩ := hr.lnext_some g3
  obtain ⟨e6, h6, g6⟩ := hr.lprev_some he
  obtain ⟨e6', h6', g6'⟩ := hr.rprev_some g6
  obtain ⟨e7, h7, g7⟩ := hr.rnext_some he
  obtain ⟨e7', h7', g7'⟩ := hr.lnext_some g7
  obtain ⟨p0, k0⟩ := hm.getPoint_fst he
  obtain ⟨p1, k1⟩ := hm.getPoint_snd he
  obtain ⟨p2, k2⟩ := hm.getPoint_snd g2
  obtain ⟨p3, k3⟩ := hm.getPoint_snd g3
  obtain ⟨p4, k4⟩ := hm.getPoint_snd g4
  obtain ⟨p5, k5⟩ := hm.getPoint_snd g5
  obtain ⟨p6, k6⟩ := hm.getPoint_snd g6'
  obtain ⟨p7, k7⟩ := hm.getPoint_snd g7'
  unfold butterflyPoint
  rw [h2, h3, h6, h7]
  simp only [Option.bind_some]
  rw [h4, h5, h6', h7']
  simp only [destOrZero, k0, k1, k2, k3, k4, k5, k6, k7]
  exact ⟨_, rfl⟩

theorem sumFrom_ok (r : List Edge) (hr : ∀ e ∈ r, inp.IsEdge e) (acc : P) : ∃ p, sumFrom inp acc r = .ok p := by
  induction r generalizing acc with
  | nil => exact ⟨_, rfl⟩
  | cons e r ih =>
    obtain ⟨p, hp⟩ := hm.getPoint_snd (hr e (by simp))
    unfold sumFrom
    rw [hp]
    exact ih (fun e he => hr e (by simp [he])) _

theorem sumDest_ok (r : List Edge) (hr : ∀ e ∈ r, inp.IsEdge e) : ∃ p, sumDest inp r = .ok p :=
  hm.sumFrom_ok r hr 0

theorem smoothingPoint_ok (hr : inp.RingOK) (cosn : Nat → K) {v w : PId} (hw : inp.IsEdge (v, w)) (p : P) :
    ∃ q, smoothingPoint cosn inp v p = .ok q := by
  obtain ⟨e, he⟩ := Option.isSome_iff_exists.1 (hr.point_edge_some _ hw)
  obtain ⟨h1, h2⟩ := hr.point_edge _ _ he
  obtain ⟨r, h3, -, h5⟩ := ringAt_ok hr h1
  obtain ⟨q1, k1⟩ := hm.sumDest_ok r fun e he => ((h5 e).1 he).1
  obtain ⟨q2, k2⟩ := hm.sumDest_ok (r.filter inp.isAtBorder) fun e he => ((h5 e).1 (List.mem_filter.1 he).1).1
  unfold smoothingPoint
  simp only at he
  rw [he]
  simp only [h3, bind, Except.bind, k1, k2]
  split <;> exact ⟨_, rfl⟩

end Mesh.Mixed

theorem mem_of_find? {α : Type} {m : AMap α} {k : Nat} {a : α} (h : m.find? k = some a) : (k, a) ∈ m := by
  induction m with
  | nil => cases h
  | cons x m ih =>
    unfold AMap.find? at h
    split at h
    · rename_i hk; cases h; subst hk; simp
    · exact List.mem_cons_of_mem _ (ih h)

theorem find?_of_mem {α : Type} {m : AMap α} {x : Nat × α} (h : x ∈ m) : (m.find? x.1).isSome := by
  rw [AMap.find?_isSome]; exact List.mem_map_of_mem h

/-- the point phase of a cell filter on a mesh of polygons -/
theorem cellPoints_mixed {sch : Scheme} (cosn : Nat → K) (hn : sch.MixedNeeds inp) (f : Filt) {Q : Fail → Prop}
    (hall : f.cells = [] → ∀ c ∈ inp.cells, Cell.tri? c.2 = none → Q (.exc .notTriangle))
    (hmiss : ∀ k ∈ f.cells, inp.cells.find? k = none → Q (.ub .missingKey))
    (hsel : ∀ k ∈ f.cells, ∀ c, inp.cells.find? k = some (some c) → Cell.tri? (some c) = none → Q (.exc .notTriangle)) :
    Hoare (fun s : St P D => s = ⟨f, Mesh.empty⟩) Q (fun _ s => HasAll inp s) (cellPoints sch cosn inp) := by
  have hm := hn.mixed
  have hnull : ∀ c ∈ inp.cells, c.2 = none → Q (.ub .nullDeref) := fun c hc h => by
    have := hm.cells_some c hc
    rw [h] at this; cases this
  have htri : ∀ c ∈ inp.cells, ∀ t, Cell.tri? c.2 = some t → t ∈ inp.tris := fun c hc t ht =>
    List.mem_filterMap.2 ⟨c, hc, ht⟩
  have three : ∀ np : Edge → Except Fail P, (∀ e, inp.IsEdge e → inp.leftSet e = true → ErrIn Q (np e)) →
      ∀ c ∈ inp.cells, (c.2.isSome → Cell.tri? c.2 = none → Q (.exc .notTriangle)) →
      Hoare (HasAll inp) Q (fun _ => HasAll inp) (addThree inp np c.2) := fun np hnp c hc hq =>
    addThree_hoare (hnull c hc) hq fun t ht e he =>
      have h := hm.tri_edge t (htri c hc t ht) e he
      ⟨Or.inl (hasEdge_of_isEdge h.1), hnp e h.1 h.2⟩
  cases sch with
  | linear =>
    have key : ∀ c ∈ inp.cells, (c.2.isSome → Cell.tri? c.2 = none → Q (.exc .notTriangle)) →
        Hoare (HasAll inp) Q (fun _ => HasAll inp) (linearAddNew K inp c.2) := fun c hc hq =>
      linearAddNew_hoare (hnull c hc) hq fun t ht e he =>
        have h := hm.tri_edge t (htri c hc t ht) e he
        ⟨Or.inl (hasEdge_of_isEdge h.1), Or.inl (hm.edge_pos _ h.1)⟩
    exact generateOutputPoints_hoare (copyPoints_hoare inp f Q) (fun h c hc => key c hc fun _ => hall h c hc) hmiss
      (fun k hk c hc => key _ (mem_of_find? hc) fun _ => hsel k hk c hc)
  | loop =>
    have hr := hn.ring (Or.inl rfl)
    have hset : ErrIn Q (loopSmoothSet inp f.cells) := by
      generalize f.cells = l at hmiss
      induction l with
      | nil => exact ErrIn.ok _
      | cons k l ih =>
        unfold loopSmoothSet
        split
        · rename_i h; exact ErrIn.err (hmiss k (by simp) h)
        · rename_i h; exact ErrIn.err (hnull _ (mem_of_find? h) rfl)
        · exact (ih fun k hk => hmiss k (by simp [hk])).map
    refine generateOutputPoints_hoare (loopCopy_hoare cosn inp f (fun kp hkp => ?_) hset) (fun h c hc => ?_) hmiss
      (fun k hk c hc => ?_)
    · obtain ⟨w, hw⟩ := hn.noIsolated rfl kp.1 (find?_of_mem hkp)
      exact ErrIn.of_ok (hm.smoothingPoint_ok hr cosn hw _)
    · exact three _ (fun e h1 h2 => ErrIn.of_ok (hm.loopPoint_ok hr h1 h2)) c hc fun _ => hall h c hc
    · exact three _ (fun e h1 h2 => ErrIn.of_ok (hm.loopPoint_ok hr h1 h2)) _ (mem_of_find? hc) fun _ => hsel k hk c hc
  | butterfly =>
    have hr := hn.ring (Or.inr rfl)
    refine generateOutputPoints_hoare (copyPoints_hoare inp f Q) (fun h c hc => ?_) hmiss (fun k hk c hc => ?_)
    · exact three _ (fun e h1 _ => ErrIn.of_ok (hm.butterflyPoint_ok hr h1)) c hc fun _ => hall h c hc
    · exact three _ (fun e h1 _ => ErrIn.of_ok (hm.butterflyPoint_ok hr h1)) _ (mem_of_find? hc) fun _ => hsel k hk c hc
  | sqrt3 =>
    have key : ∀ c ∈ inp.cells, (c.2.isSome → Cell.tri? c.2 = none → Q (.exc .notTriangle)) →
        Hoare (HasAll inp) Q (fun _ => HasAll inp) (sq3AddNew K inp c.2) := fun c hc hq =>
      sq3AddNew_hoare (hnull c hc) hq fun t ht e he => Or.inl (hm.edge_pos _ (hm.tri_edge t (htri c hc t ht) e he).1)
    exact generateOutputPoints_hoare (copyPoints_hoare inp f Q) (fun h c hc => key c hc fun _ => hall h c hc) hmiss
      (fun k hk c hc => key _ (mem_of_find? hc) fun _ => hsel k hk c hc)

end mixed

/-- what the point phase has gone through when it returns -/
theorem generateOutputPoints_ok_inv {inp : Mesh P D} {f : Filt} {copy : M P D Unit} {addNew : Option Cell → M P D Unit}
    (hcopy : Hoare (fun s : St P D => s = ⟨f, Mesh.empty⟩) (fun _ => True) (fun _ s => s.filt = f ∧ HasAll inp s) copy)
    {s : St P D} (h : generateOutputPoints copy addNew inp ⟨f, Mesh.empty⟩ = (.ok (), s)) :
    (f.cells = [] → ∀ c ∈ inp.cells, ∃ s, (addNew c.2 s).1 = .ok ()) ∧
    ∀ k ∈ f.cells, ∃ oc, inp.cells.find? k = some oc ∧ ∀ c, oc = some c → ∃ s, (addNew (some c) s).1 = .ok () := by
  obtain ⟨_, s1, h1, h2⟩ := bind_ok_inv (congrArg Prod.fst h)
  have hf : s1.filt = f := by
    have := hcopy _ rfl
    rw [h1] at this
    exact this.1
  have h3 : ((fun s : St P D => if s.filt.uniform then
      Prog.forEach (fun c => addNew c.2) inp.cells s
    else
      Prog.forEach (fun id =>
        match inp.cells.find? id with
        | none => Prog.fail (.ub .missingKey)
        | some none => Prog.pure ()
        | some (some c) => addNew (some c)) s.filt.cells s)
      ⟨{ s1.filt with epi := fun _ => none, uniform := s1.filt.cells.isEmpty }, s1.out⟩).1 = .ok () := h2
  simp only [hf] at h3
  split at h3
  · rename_i he
    refine ⟨fun _ => forEach_ok_all h3, fun k hk => ?_⟩
    rw [List.isEmpty_iff.1 he] at hk
    cases hk
  · rename_i he
    refine ⟨fun h => absurd (List.isEmpty_iff.2 h) he, fun k hk => ?_⟩
    obtain ⟨s', h4⟩ := forEach_ok_all h3 k hk
    rcases hc : inp.cells.find? k with _ | _ | c
    · simp only [hc] at h4; cases h4
    · exact ⟨none, rfl, fun c hc => nomatch hc⟩
    · simp only [hc] at h4
      exact ⟨some c, rfl, fun c' hc' => by cases hc'; exact ⟨s', h4⟩⟩

/-- a cell that `AddNewCellPoints` returns from is a triangle -/
theorem requireTriangle_ok_inv {c : Option Cell} {α : Type} {k : PId × PId × PId → M P D α} {s : St P D} {a : α}
    (h : (Prog.bind (requireTriangle c) k s).1 = .ok a) : (Cell.tri? c).isSome := by
  obtain ⟨t, s', h1, -⟩ := bind_ok_inv h
  unfold requireTriangle at h1
  rw [asTriangle_eq] at h1
  cases c with
  | none => cases h1
  | some x =>
    simp only at h1
    cases ht : Cell.tri? (some x) with
    | none => rw [ht] at h1; cases h1
    | some t => rfl

theorem cellPoints_ok_inv {sch : Scheme} {cosn : Nat → K} {inp : Mesh P D} {f : Filt} {s : St P D}
    (h : cellPoints sch cosn inp ⟨f, Mesh.empty⟩ = (.ok (), s)) :
    (f.cells = [] → inp.AllTriangles) ∧
    ∀ k ∈ f.cells, ∃ oc, inp.cells.find? k = some oc ∧ ∀ c, oc = some c → (Cell.tri? (some c)).isSome := by
  have fin : ∀ {addNew : Option Cell → M P D Unit}, (∀ c s, (addNew c s).1 = .ok () → (Cell.tri? c).isSome) →
      ((f.cells = [] → ∀ c ∈ inp.cells, ∃ s, (addNew c.2 s).1 = .ok ()) ∧
    ∀ k ∈ f.cells, ∃ oc, inp.cells.find? k = some oc ∧ ∀ c, oc = some c → ∃ s, (addNew (some c) s).1 = .ok ()) →
      (f.cells = [] → inp.AllTriangles) ∧
    ∀ k ∈ f.cells, ∃ oc, inp.cells.find? k = some oc ∧ ∀ c, oc = some c → (Cell.tri? (some c)).isSome := by
    intro addNew ha hb
    refine ⟨fun h0 c hc => ?_, fun k hk => ?_⟩
    · obtain ⟨s, hs⟩ := hb.1 h0 c hc
      exact ha _ s hs
    · obtain ⟨oc, h1, h2⟩ := hb.2 k hk
      refine ⟨oc, h1, fun c hc => ?_⟩
      obtain ⟨s, hs⟩ := h2 c hc
      exact ha _ s hs
  cases sch with
  | linear => exact fin (addNew := linearAddNew K inp) (fun _ _ h => requireTriangle_ok_inv h) (generateOutputPoints_ok_inv (copyPoints_hoare inp f _) h)
  | loop =>
    exact fin (addNew := loopAddNew K inp) (fun _ _ h => requireTriangle_ok_inv h) (generateOutputPoints_ok_inv
      (loopCopy_hoare cosn inp f (fun _ _ _ _ => trivial) (fun _ _ => trivial)) h)
  | butterfly => exact fin (addNew := butterflyAddNew K inp) (fun _ _ h => requireTriangle_ok_inv h) (generateOutputPoints_ok_inv (copyPoints_hoare inp f _) h)
  | sqrt3 => exact fin (addNew := sq3AddNew K inp) (fun _ _ h => requireTriangle_ok_inv h) (generateOutputPoints_ok_inv (copyPoints_hoare inp f _) h)

/-- if the point phase does not return, the run ends with its failure -/
theorem cellUpdate_error {sch : Scheme} {lib : QELib} {cosn : Nat → K} {inp : Mesh P D} {f : Filt} {e : Fail}
    (h : (cellPoints sch cosn inp ⟨f, Mesh.empty⟩).1 = .error e) : (cellUpdate sch lib cosn f inp).1 = .error e := by
  unfold cellUpdate runFilter
  rw [cellGenerate_phases]
  unfold generateData Prog.bind
  rcases hr : cellPoints sch cosn inp ⟨f, Mesh.empty⟩ with ⟨r, s⟩
  rw [hr] at h
  simp only at h
  subst h
  rfl

/-- a run that does not return from its point phase, whose failures are in `Q` -/
theorem cellUpdate_fails {sch : Scheme} {lib : QELib} {cosn : Nat → K} {inp : Mesh P D} {f : Filt} {Q : Fail → Prop}
    {Post : Unit → St P D → Prop}
    (h : Hoare (fun s : St P D => s = ⟨f, Mesh.empty⟩) Q Post (cellPoints sch cosn inp))
    (hn : ∀ s, cellPoints sch cosn inp ⟨f, Mesh.empty⟩ ≠ (.ok (), s)) :
    ∃ e, Q e ∧ (cellUpdate sch lib cosn f inp).1 = .error e := by
  rcases hr : cellPoints sch cosn inp ⟨f, Mesh.empty⟩ with ⟨r, s⟩
  cases r with
  | ok a => exact absurd hr (hn s)
  | error e => exact ⟨e, h.error rfl (congrArg Prod.fst hr), cellUpdate_error (congrArg Prod.fst hr)⟩

theorem Mesh.Valid.mixed {inp : Mesh P D} (hv : inp.Valid) : inp.Mixed := by
  refine ⟨fun c hc => ?_, fun t ht e he => ?_, fun e he => ?_⟩
  · obtain ⟨t, h, _⟩ := hv.cells_tri c hc
    rw [h]; rfl
  · have := mem_dartsOf.2 ⟨t, ht, he⟩
    exact ⟨hv.isEdge_of_dart this, hv.leftSet_iff.2 this⟩
  · have := hv.points_find? (hv.isEdge_lt he).1
    unfold Mesh.pos
    rw [this]; rfl

theorem Scheme.Needs.mixed {sch : Scheme} {inp : Mesh P D} (hn : sch.Needs inp) : sch.MixedNeeds inp := by
  refine ⟨hn.valid.mixed, hn.ring, fun h v hv => ?_⟩
  refine (hn.noIsolated h).edge hn.valid ?_
  unfold Mesh.pos at hv
  rw [AMap.find?_isSome, hn.valid.points_dense, List.mem_range] at hv
  exact hv

end Verif
