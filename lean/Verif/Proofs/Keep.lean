import Verif.Proofs.Schemes
/-
The filters that interpolate keep the input points, on any mesh whose points are numbered `0 … n-1`.
-/
namespace Verif
set_option linter.unusedSectionVars false
variable {σ α β : Type}

/-- If `I` holds before and the program returns, `Q` holds after. -/
def Triple (I : σ → Prop) (p : Prog σ α) (Q : α → σ → Prop) : Prop :=
  ∀ s a s', I s → p s = (.ok a, s') → Q a s'

namespace Triple

theorem pure {I : σ → Prop} (a : α) : Triple I (Prog.pure a) (fun _ => I) := by
  intro s a' s' h h1
  cases h1; exact h

theorem pure' {I : σ → Prop} {Q : α → σ → Prop} (a : α) (h : ∀ s, I s → Q a s) : Triple I (Prog.pure a) Q := by
  intro s a' s' hs h1
  cases h1; exact h s hs

theorem fail {I : σ → Prop} {Q : α → σ → Prop} (e : Fail) : Triple I (Prog.fail e) Q := by
  intro s a s' _ h; cases h

theorem bind {I : σ → Prop} {p : Prog σ α} {Q : α → σ → Prop} {f : α → Prog σ β} {R : β → σ → Prop}
    (h1 : Triple I p Q) (h2 : ∀ a, Triple (Q a) (f a) R) : Triple I (Prog.bind p f) R := by
  intro s b s' hs h
  unfold Prog.bind at h
  split at h
  · rename_i a s1 heq
    exact h2 a s1 b s' (h1 s a s1 hs heq) h
  · cases h

theorem forEach {I : σ → Prop} {f : α → Prog σ Unit} {xs : List α} (h : ∀ x ∈ xs, Triple I (f x) (fun _ => I)) :
    Triple I (Prog.forEach f xs) (fun _ => I) := by
  induction xs with
  | nil => exact pure ()
  | cons x xs ih =>
    exact bind (h x (by simp)) fun _ => ih fun y hy => h y (by simp [hy])

theorem lift {I : σ → Prop} (r : Except Fail α) : Triple I (Prog.lift r) (fun _ => I) := by
  intro s a s' h h1
  unfold Prog.lift at h1
  cases h1; exact h

theorem lift_eq {I : σ → Prop} (r : Except Fail α) : Triple I (Prog.lift r) (fun a s => I s ∧ r = .ok a) := by
  intro s a s' h h1
  unfold Prog.lift at h1
  cases h1; exact ⟨h, rfl⟩

theorem imp {I I' : σ → Prop} {p : Prog σ α} {Q Q' : α → σ → Prop} (h : Triple I p Q) (h1 : ∀ s, I' s → I s)
    (h2 : ∀ a s, Q a s → Q' a s) : Triple I' p Q' := fun s a s' hs hp => h2 a s' (h s a s' (h1 s hs) hp)

end Triple

variable {K P D : Type}

theorem ensureEdge_points (m : Mesh P D) (e : Edge) : (m.ensureEdge e).1.points = m.points := by
  unfold Mesh.ensureEdge
  split
  · rfl
  · split <;> rfl

theorem addFaceTriangle_points (m : Mesh P D) (a b c : PId) : (m.addFaceTriangle a b c).1.points = m.points := by
  unfold Mesh.addFaceTriangle
  split
  · rfl
  split
  · rfl
  split
  · rfl
  have h1 := ensureEdge_points m (a, b)
  rcases he1 : m.ensureEdge (a, b) with ⟨m1, _ | _⟩
  · rw [he1] at h1; exact h1
  · rw [he1] at h1
    have h2 := ensureEdge_points m1 (b, c)
    rcases he2 : m1.ensureEdge (b, c) with ⟨m2, _ | _⟩
    · rw [he2] at h2; simp only [he2]; exact h2.trans h1
    · rw [he2] at h2
      have h3 := ensureEdge_points m2 (c, a)
      rcases he3 : m2.ensureEdge (c, a) with ⟨m3, _ | _⟩
      · rw [he3] at h3; simp only [he2, he3]; exact h3.trans (h2.trans h1)
      · rw [he3] at h3; simp only [he2, he3]; exact h3.trans (h2.trans h1)

section cells
variable {X : AMap P}

/-- the output points are `X` -/
abbrev PtsAre (X : AMap P) (s : St P D) : Prop := s.out.points = X

theorem addFace_keep (a b c : PId) : Triple (PtsAre (D := D) X) (addFace a b c) (fun _ => PtsAre X) := by
  intro s e s' h h1
  unfold addFace at h1
  cases h1
  exact (addFaceTriangle_points _ _ _ _).trans h

theorem passCellData_keep (inp : Mesh P D) (id : CId) (e : Option Edge) :
    Triple (PtsAre (D := D) X) (passCellData inp id e) (fun _ => PtsAre X) := by
  intro s u s' h h1
  unfold passCellData at h1
  split at h1
  · cases h1; exact h
  · split at h1
    · cases h1; exact h
    · split at h1
      · cases h1; exact h
      · split at h1
        · cases h1; exact h
        · cases h1; exact h

theorem addPass_keep (inp : Mesh P D) (id : CId) (a b c : PId) :
    Triple (PtsAre (D := D) X) (addPass inp id a b c) (fun _ => PtsAre X) :=
  Triple.bind (addFace_keep a b c) fun _ => Triple.bind (passCellData_keep inp id _) fun _ => Triple.pure _

theorem pushChild_keep (q : Option Edge) : Triple (PtsAre (D := D) X) (pushChild q) (fun _ => PtsAre X) := by
  intro s u s' h h1
  unfold pushChild at h1
  split at h1
  · cases h1
  · split at h1
    · cases h1
    · cases h1; exact h

theorem readEdge_keep (sp : Split) (i : Nat) : Triple (PtsAre (D := D) X) (sp.readEdge i) (fun _ => PtsAre X) := by
  intro s u s' h h1
  unfold Split.readEdge at h1
  split at h1 <;> cases h1; exact h

local macro "keep" : tactic => `(tactic| repeat (first
  | exact Triple.pure _
  | exact Triple.fail _
  | refine Triple.bind (readEdge_keep _ _) fun _ => ?_
  | refine Triple.bind (addPass_keep _ _ _ _ _) fun _ => ?_
  | refine Triple.bind (pushChild_keep _) fun _ => ?_))

theorem splitOne_keep (inp : Mesh P D) (sp : Split) (ii : Nat) (id : CId) :
    Triple (PtsAre (D := D) X) (splitOne inp sp ii id) (fun _ => PtsAre X) := by
  unfold splitOne
  keep

theorem splitTwo_keep (inp : Mesh P D) (sp : Split) (ii jj : Nat) (id : CId) :
    Triple (PtsAre (D := D) X) (splitTwo inp sp ii jj id) (fun _ => PtsAre X) := by
  unfold splitTwo
  simp only
  split
  · keep
  split
  · keep
  split
  · keep
  · keep

theorem splitThree_keep (inp : Mesh P D) (sp : Split) (u : Bool) (id : CId) :
    Triple (PtsAre (D := D) X) (splitThree inp sp u id) (fun _ => PtsAre X) := by
  unfold splitThree
  simp only
  keep
  split
  · keep
  · keep

theorem outputCellsOfTriangle_keep (inp : Mesh P D) (id : CId) (t : PId × PId × PId) :
    Triple (PtsAre (D := D) X) (outputCellsOfTriangle inp id t) (fun _ => PtsAre X) := by
  intro s u s' h h1
  unfold outputCellsOfTriangle at h1
  simp only at h1
  split at h1
  · exact Triple.bind (addPass_keep inp id _ _ _) (fun _ => Triple.pure ()) s u s' h h1
  · exact splitOne_keep _ _ _ _ s u s' h h1
  · exact splitTwo_keep _ _ _ _ _ s u s' h h1
  · exact splitThree_keep _ _ _ _ s u s' h h1

theorem modifyFilt_keep (g : Filt → Filt) : Triple (PtsAre (D := D) X) (modifyFilt g) (fun _ => PtsAre X) := by
  intro s u s' h h1
  cases h1; exact h

theorem generateOutputCells_keep (inp : Mesh P D) :
    Triple (PtsAre (D := D) X) (generateOutputCells inp) (fun _ => PtsAre X) := by
  refine Triple.bind (modifyFilt_keep _) fun _ => Triple.forEach ?_
  intro c _
  split
  · exact Triple.fail _
  · unfold actCell
    split
    · exact outputCellsOfTriangle_keep inp _ _
    · exact Triple.pure ()

theorem setEpi_keep (e : Edge) (id : PId) : Triple (PtsAre (D := D) X) (setEpi e id) (fun _ => PtsAre X) :=
  modifyFilt_keep _

theorem sq3Emit_keep (inp : Mesh P D) (u : Bool) (id : CId) (a b c : PId) :
    Triple (PtsAre (D := D) X) (sq3Emit inp u id a b c) (fun _ => PtsAre X) := by
  refine Triple.bind (addPass_keep inp id _ _ _) fun _ => ?_
  split
  · exact Triple.pure ()
  · exact pushChild_keep _

theorem sq3Darts_keep (inp : Mesh P D) (u : Bool) (id : CId) (t : PId × PId × PId) (l : List (PId × PId)) :
    Triple (PtsAre (D := D) X) (sq3Darts inp u id t l) (fun _ => PtsAre X) := by
  induction l with
  | nil => exact Triple.pure ()
  | cons xy l ih =>
    intro s a s' h h1
    unfold sq3Darts at h1
    split at h1
    · exact Triple.bind (addPass_keep inp id _ _ _) (fun _ => Triple.pure ()) s a s' h h1
    · split at h1
      · split at h1
        · exact Triple.bind (sq3Emit_keep inp u id _ _ _) (fun _ => ih) s a s' h h1
        · exact Triple.bind (sq3Emit_keep inp u id _ _ _) (fun _ => Triple.bind (sq3Emit_keep inp u id _ _ _) fun _ =>
            Triple.bind (setEpi_keep _ _) fun _ => ih) s a s' h h1
      · exact ih s a s' h h1

theorem sq3OutputCells_keep (inp : Mesh P D) :
    Triple (PtsAre (D := D) X) (sq3OutputCells inp) (fun _ => PtsAre X) := by
  refine Triple.bind (modifyFilt_keep _) fun _ => Triple.forEach ?_
  intro c _
  split
  · exact Triple.fail _
  · unfold sq3Act
    split
    · exact Triple.fail _
    · split
      · intro s a s' h h1
        exact sq3Darts_keep inp _ _ _ _ s a s' h h1
      · exact Triple.pure ()

end cells

section points
variable [Field K] [Zero P] [Add P] [SMul K P]

/-- the output points are `base` followed by others; `n` is their number -/
def PtsExt (base : List P) (n : Nat) (s : St P D) : Prop :=
  ∃ extra, s.out.points = AMap.dense (base ++ extra) ∧ n = (base ++ extra).length

/-- the output points are `base` followed by others -/
def PtsExt' (base : List P) (s : St P D) : Prop := ∃ n, PtsExt base n s

variable {base : List P}

theorem setPoint_ext (n : Nat) (p : P) :
    Triple (PtsExt (D := D) base n) (modifyOut fun o => o.setPoint n p) (fun _ => PtsExt base (n + 1)) := by
  intro s u s' h h1
  cases h1
  obtain ⟨extra, h2, rfl⟩ := h
  refine ⟨extra ++ [p], ?_, ?_⟩
  · simp only [Mesh.setPoint, h2, AMap.set_dense_length, List.append_assoc]
  · simp only [List.length_append, List.length_singleton]; omega

theorem setEpi_ext (n : Nat) (e : Edge) (id : PId) :
    Triple (PtsExt (D := D) base n) (setEpi e id) (fun _ => PtsExt base n) := by
  intro s u s' h h1
  cases h1; exact h

theorem modifyFilt_ext (n : Nat) (g : Filt → Filt) :
    Triple (PtsExt (D := D) base n) (modifyFilt g) (fun _ => PtsExt base n) := by
  intro s u s' h h1
  cases h1; exact h

theorem numberOfPoints_ext : Triple (PtsExt' (D := D) base) numberOfPoints (fun n => PtsExt base n) := by
  intro s n s' h h1
  cases h1
  obtain ⟨n, extra, h2, rfl⟩ := h
  refine ⟨extra, h2, ?_⟩
  rw [h2, AMap.length_dense]

theorem addEdgePoint_ext (inp : Mesh P D) (np : Edge → Except Fail P) (x y n : PId) :
    Triple (PtsExt (D := D) base n) (addEdgePoint inp np x y n) (fun n' => PtsExt base n') := by
  unfold addEdgePoint
  split
  · exact Triple.fail _
  · intro s a s' h h1
    simp only at h1
    split at h1
    · cases h1; exact h
    · exact Triple.bind (Triple.lift _) (fun p => Triple.bind (setEpi_ext n _ _) fun _ =>
        Triple.bind (setEpi_ext n _ _) fun _ => Triple.bind (setPoint_ext n p) fun _ =>
        Triple.pure' (Q := fun n' => PtsExt base n') (n + 1) (fun _ h => h)) s a s' h h1

theorem ext_imp {n : Nat} {s : St P D} (h : PtsExt base n s) : PtsExt' base s := ⟨n, h⟩

theorem requireTriangle_ext (c : Option Cell) :
    Triple (PtsExt' (D := D) base) (requireTriangle c) (fun _ => PtsExt' base) := by
  unfold requireTriangle
  split
  · exact Triple.fail _
  · split
    · exact Triple.pure _
    · exact Triple.fail _

theorem getOutPoint_ext (n : Nat) (id : PId) : Triple (PtsExt (D := D) base n) (getOutPoint id) (fun _ => PtsExt base n) := by
  intro s a s' h h1
  have : s' = s := (congrArg Prod.snd h1).symm
  rw [this]; exact h

theorem addThree_ext (inp : Mesh P D) (np : Edge → Except Fail P) (c : Option Cell) :
    Triple (PtsExt' (D := D) base) (addThree inp np c) (fun _ => PtsExt' base) :=
  Triple.bind (requireTriangle_ext c) fun _ => Triple.bind numberOfPoints_ext fun n =>
    Triple.bind (addEdgePoint_ext inp np _ _ n) fun n => Triple.bind (addEdgePoint_ext inp np _ _ n) fun n =>
    Triple.bind (addEdgePoint_ext inp np _ _ n) fun _ => Triple.pure' () (fun _ h => ext_imp h)

theorem linearAddNew_ext (inp : Mesh P D) (c : Option Cell) :
    Triple (PtsExt' (D := D) base) (linearAddNew K inp c) (fun _ => PtsExt' base) :=
  Triple.bind (requireTriangle_ext c) fun _ => Triple.bind numberOfPoints_ext fun n =>
    Triple.bind (getOutPoint_ext n _) fun _ => Triple.bind (getOutPoint_ext n _) fun _ =>
    Triple.bind (getOutPoint_ext n _) fun _ =>
    Triple.bind (addEdgePoint_ext inp _ _ _ n) fun n => Triple.bind (addEdgePoint_ext inp _ _ _ n) fun n =>
    Triple.bind (addEdgePoint_ext inp _ _ _ n) fun _ => Triple.pure' () (fun _ h => ext_imp h)

theorem sq3Mark_ext (inp : Mesh P D) (id n : PId) (l : List (PId × PId)) :
    Triple (PtsExt (D := D) base n) (sq3Mark inp id l) (fun _ => PtsExt base n) := by
  refine Triple.forEach ?_
  intro xy _
  split
  · exact Triple.pure ()
  · intro s a s' h h1
    simp only at h1
    split at h1
    · cases h1; exact h
    · exact setEpi_ext n _ _ s a s' h h1

theorem sq3AddNew_ext (inp : Mesh P D) (c : Option Cell) :
    Triple (PtsExt' (D := D) base) (sq3AddNew K inp c) (fun _ => PtsExt' base) :=
  Triple.bind (requireTriangle_ext c) fun _ => Triple.bind (Triple.lift _) fun _ => Triple.bind (Triple.lift _) fun _ =>
    Triple.bind (Triple.lift _) fun _ => Triple.bind numberOfPoints_ext fun n => Triple.bind (setPoint_ext n _) fun _ =>
    (sq3Mark_ext inp _ _ _).imp (fun _ h => h) (fun _ _ h => ext_imp h)

theorem addNewEdgePoint_ext (np : Edge → Except Fail P) (e : Edge) :
    Triple (PtsExt' (D := D) base) (addNewEdgePoint np e) (fun _ => PtsExt' base) :=
  Triple.bind (Triple.lift _) fun _ => Triple.bind numberOfPoints_ext fun n => Triple.bind (setEpi_ext n _ _) fun _ =>
    Triple.bind (setEpi_ext n _ _) fun _ => (setPoint_ext n _).imp (fun _ h => h) (fun _ _ h => ext_imp h)

theorem generateOutputPoints_ext {copy : M P D Unit} {addNew : Option Cell → M P D Unit} (inp : Mesh P D)
    {I : St P D → Prop} (hc : Triple I copy (fun _ => PtsExt' base))
    (hn : ∀ c, Triple (PtsExt' (D := D) base) (addNew c) (fun _ => PtsExt' base)) :
    Triple I (generateOutputPoints copy addNew inp) (fun _ => PtsExt' base) := by
  have hm : ∀ g, Triple (PtsExt' (D := D) base) (modifyFilt g) (fun _ => PtsExt' base) :=
    fun g s a s' ⟨n, h⟩ h1 => ⟨n, modifyFilt_ext n g s a s' h h1⟩
  refine Triple.bind hc fun _ => Triple.bind (hm _) fun _ => Triple.bind (hm _) fun _ => ?_
  intro s a s' h h1
  simp only at h1
  split at h1
  · exact Triple.forEach (fun c _ => hn c.2) s a s' h h1
  · refine Triple.forEach (fun id _ => ?_) s a s' h h1
    split
    · exact Triple.fail _
    · exact Triple.pure ()
    · exact hn _

theorem edgeOutputPoints_ext {copy : M P D Unit} {addNew : Edge → M P D Unit} (inp : Mesh P D)
    {I : St P D → Prop} (hc : Triple I copy (fun _ => PtsExt' base))
    (hn : ∀ e, Triple (PtsExt' (D := D) base) (addNew e) (fun _ => PtsExt' base)) :
    Triple I (edgeOutputPoints copy addNew inp) (fun _ => PtsExt' base) := by
  have hm : ∀ g, Triple (PtsExt' (D := D) base) (modifyFilt g) (fun _ => PtsExt' base) :=
    fun g s a s' ⟨n, h⟩ h1 => ⟨n, modifyFilt_ext n g s a s' h h1⟩
  refine Triple.bind hc fun _ => Triple.bind (hm _) fun _ => Triple.bind (hm _) fun _ => ?_
  intro s a s' h h1
  simp only at h1
  split at h1
  · split at h1
    · exact Triple.forEach (fun e _ => hn e) s a s' h h1
    · cases h1
  · refine Triple.forEach (fun oe _ => ?_) s a s' h h1
    split
    · exact hn _
    · exact Triple.pure ()

/-- a fresh output mesh -/
abbrev Fresh (s : St P D) : Prop := s.out = Mesh.empty

theorem copyPoints_ext {inp : Mesh P D} (hp : inp.points = AMap.dense base) :
    Triple Fresh (copyPoints inp) (fun _ => PtsExt' base) := by
  intro s a s' h h1
  cases h1
  refine ⟨base.length, [], ?_, by simp⟩
  have h0 : s.out.points = [] := by rw [h]; rfl
  simp only [h0, List.append_nil]
  rw [hp, AMap.length_dense, AMap.reserve_nil]
  exact AMap.foldl_set_dense _ _ (by simp)

theorem writePoints_keep {val : PId → P → Except Fail P} (hval : ∀ v p q, val v p = .ok q → q = p)
    (r p q : List P) (hq : q.length = r.length) :
    Triple (PtsAre (D := D) (AMap.dense (p ++ q))) (writePoints val (AMap.denseFrom p.length r))
      (fun _ => PtsAre (AMap.dense (p ++ r))) := by
  induction r generalizing p q with
  | nil =>
    intro s a s' h h1
    simp at hq; subst hq
    cases h1; exact h
  | cons x r ih =>
    obtain ⟨y, q, rfl⟩ : ∃ y q', q = y :: q' := by
      cases q with
      | nil => simp at hq
      | cons y q => exact ⟨y, q, rfl⟩
    refine Triple.bind (Q := fun _ => PtsAre (AMap.dense ((p ++ [x]) ++ q)))
      (Triple.bind (Triple.lift_eq _) fun z => ?_) fun _ => ?_
    · intro s a s' ⟨h, hz⟩ h1
      obtain rfl := hval _ _ _ hz
      cases h1
      change (s.out.points.set p.length z) = _
      rw [h, AMap.set_dense_lt _ _ _ (by simp)]
      simp
    · have := ih (p ++ [x]) q (by simpa using hq)
      rw [List.length_append, List.length_singleton, List.append_assoc, List.append_assoc] at this
      rw [List.append_assoc]
      exact this

theorem loopEdgeWalk_true {m : Mesh P D} {sel : List (Option Edge)} {start : Edge} :
    ∀ (n : Nat) (q0 : Edge) (q1 : Option Edge) (b : Bool), loopEdgeWalk m sel start n q0 q1 = .ok b → b = true := by
  intro n
  induction n with
  | zero => intro q0 q1 b h; simp [loopEdgeWalk] at h
  | succ n ih =>
    intro q0 q1 b h
    unfold loopEdgeWalk at h
    split at h
    · cases h; rfl
    split at h
    · cases h; rfl
    split at h
    · cases h
    · exact ih _ _ _ h

theorem loopEdgeValue_keep (cosn : Nat → K) (inp : Mesh P D) (sel : List (Option Edge)) (v : PId) (p q : P)
    (h : loopEdgeValue cosn inp sel v p = .ok q) : q = p := by
  unfold loopEdgeValue at h
  split at h
  · cases h
  · rename_i e he
    cases hw : loopEdgeWalk inp sel e (2 * inp.edges.length + 1) e (inp.ring.onext e) with
    | error x => rw [hw] at h; cases h
    | ok b =>
      have := loopEdgeWalk_true _ _ _ _ hw
      subst this
      rw [hw] at h
      cases h; rfl

theorem loopEdgeCopy_ext (cosn : Nat → K) {inp : Mesh P D} (hp : inp.points = AMap.dense base) :
    Triple Fresh (loopEdgeCopy cosn inp) (fun _ => PtsExt' base) := by
  refine Triple.bind (Q := fun _ s => PtsAre (AMap.dense (List.replicate base.length (0 : P))) s) ?_ fun _ => ?_
  · intro s a s' h h1
    cases h1
    change s.out.points.reserve _ _ = _
    have h0 : s.out.points = [] := by rw [h]; rfl
    rw [h0, hp, AMap.length_dense, AMap.reserve_nil]
  · intro s a s' h h1
    rw [hp] at h1
    have := writePoints_keep (D := D) (loopEdgeValue_keep cosn inp s.filt.edgeSel) base [] (List.replicate base.length 0)
      (by simp) s a s' (by simpa using h) h1
    exact ⟨base.length, [], by simpa using this, by simp⟩

/-! Whole runs. -/

theorem runFilter_keep {lib : QELib} {gen : M P D Unit} {f f' : Filt} {out : Mesh P D}
    (hg : Triple Fresh gen (fun _ => PtsExt' base)) (h : runFilter lib gen f = (.ok out, f')) :
    ∃ new, out.points = AMap.dense (base ++ new) := by
  unfold runFilter at h
  split at h
  · rename_i a s hs
    obtain ⟨n, new, h1, h2⟩ := hg _ _ _ rfl hs
    cases h
    exact ⟨new, h1⟩
  · cases h

theorem generateData_keep {I : St P D → Prop} {points cells : M P D Unit}
    (hp : Triple I points (fun _ => PtsExt' base))
    (hc : ∀ X, Triple (PtsAre (D := D) X) cells (fun _ => PtsAre X)) :
    Triple I (generateData points cells) (fun _ => PtsExt' base) := by
  refine Triple.bind hp fun _ => ?_
  intro s a s' ⟨n, new, h1, h2⟩ h3
  exact ⟨n, new, hc _ s a s' h1 h3, h2⟩

theorem cellUpdate_keep {sch : Scheme} (hs : sch ≠ .loop) {lib : QELib} {cosn : Nat → K} {f f' : Filt} {inp out : Mesh P D}
    (hp : inp.points = AMap.dense base) (h : cellUpdate sch lib cosn f inp = (.ok out, f')) :
    ∃ new, out.points = AMap.dense (base ++ new) := by
  refine runFilter_keep ?_ h
  cases sch with
  | linear =>
    exact generateData_keep (generateOutputPoints_ext inp (copyPoints_ext hp) (linearAddNew_ext (K := K) inp))
      (fun _ => generateOutputCells_keep inp)
  | loop => exact absurd rfl hs
  | butterfly =>
    exact generateData_keep (generateOutputPoints_ext inp (copyPoints_ext hp) (addThree_ext inp _))
      (fun _ => generateOutputCells_keep inp)
  | sqrt3 =>
    exact generateData_keep (generateOutputPoints_ext inp (copyPoints_ext hp) (sq3AddNew_ext (K := K) inp))
      (fun _ => sq3OutputCells_keep inp)

theorem edgeUpdate_keep {sch : EdgeScheme} {lib : QELib} {cosn : Nat → K} {f f' : Filt} {inp out : Mesh P D}
    (hp : inp.points = AMap.dense base) (h : edgeUpdate sch lib cosn f inp = (.ok out, f')) :
    ∃ new, out.points = AMap.dense (base ++ new) := by
  refine runFilter_keep ?_ h
  cases sch with
  | linear =>
    exact generateData_keep (edgeOutputPoints_ext inp (copyPoints_ext hp) (addNewEdgePoint_ext _))
      (fun _ => generateOutputCells_keep inp)
  | loop =>
    exact generateData_keep (edgeOutputPoints_ext inp (loopEdgeCopy_ext cosn hp) (addNewEdgePoint_ext _))
      (fun _ => generateOutputCells_keep inp)
  | butterfly =>
    exact generateData_keep (edgeOutputPoints_ext inp (copyPoints_ext hp) (addNewEdgePoint_ext _))
      (fun _ => generateOutputCells_keep inp)

end points
end Verif
