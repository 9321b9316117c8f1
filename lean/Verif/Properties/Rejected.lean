import Verif.Proofs.Failures
import Verif.Properties.Samples
/-
C35: cells that are not triangles.  C36: listed ids of no cell.
-/
namespace Verif
set_option linter.unusedSectionVars false
variable {K P D : Type} [Field K] [Zero P] [Add P] [SMul K P]

section sample

def isHang {α : Type} : Except Fail α → Bool
  | .error .hang => true
  | _ => false

theorem isHang_iff {α : Type} {r : Except Fail α} : isHang r = true ↔ r = .error .hang := by
  rcases r with (_ | _ | _) | _ <;> simp [isHang]

/-- a triangle and a quadrilateral with a common edge, linked as a quad-edge mesh -/
def mixedRing : Ring where
  onext e := [((0, 1), (0, 2)), ((0, 2), (0, 3)), ((0, 3), (0, 1)), ((1, 2), (1, 0)), ((1, 0), (1, 4)), ((1, 4), (1, 2)),
    ((2, 0), (2, 1)), ((2, 1), (2, 0)), ((3, 4), (3, 0)), ((3, 0), (3, 4)), ((4, 1), (4, 3)), ((4, 3), (4, 1))].lookup e
  oprev e := [((0, 2), (0, 1)), ((0, 3), (0, 2)), ((0, 1), (0, 3)), ((1, 0), (1, 2)), ((1, 4), (1, 0)), ((1, 2), (1, 4)),
    ((2, 1), (2, 0)), ((2, 0), (2, 1)), ((3, 0), (3, 4)), ((3, 4), (3, 0)), ((4, 3), (4, 1)), ((4, 1), (4, 3))].lookup e
  pointEdge v := [(0, (0, 1)), (1, (1, 2)), (2, (2, 0)), (3, (3, 4)), (4, (4, 1))].lookup v

def mixedMesh : Mesh Q3 Nat :=
  let cells := [(0, some ⟨.polygon, [0, 1, 2]⟩), (1, some ⟨.polygon, [1, 0, 3, 4]⟩)]
  { points := AMap.dense [(0, 0, 0), (4, 0, 0), (0, 4, 0), (0, -4, 0), (4, -4, 0)]
    cells := cells
    cellData := none
    hasEdgeCells := true
    edges := [(0, 1), (1, 2), (2, 0), (0, 3), (3, 4), (4, 1)]
    left := leftOf cells
    ring := mixedRing }

theorem mem_of_lookup {α β : Type} [BEq α] [LawfulBEq α] {l : List (α × β)} {k : α} {b : β} (h : l.lookup k = some b) :
    (k, b) ∈ l := by
  obtain ⟨l₁, l₂, rfl, -⟩ := List.lookup_eq_some_iff.1 h
  simp

theorem mixedMesh_edge {p : Edge → Prop} [DecidablePred p]
    (h : ∀ e ∈ mixedMesh.edges ++ mixedMesh.edges.map Edge.sym, p e) : ∀ e, mixedMesh.IsEdge e → p e :=
  fun e he => h e (isEdge_mem.1 he)

instance (e : Edge) : Decidable (mixedMesh.IsEdge e) := by unfold Mesh.IsEdge; infer_instance

theorem mixedMesh_ring : mixedMesh.RingOK where
  onext_some := by
    have : ∀ e ∈ mixedMesh.edges ++ mixedMesh.edges.map Edge.sym, ∃ e' ∈ mixedMesh.edges ++ mixedMesh.edges.map Edge.sym,
      mixedMesh.ring.onext e = some e' ∧ e'.1 = e.1 := by decide
    intro e he
    obtain ⟨e', h1, h2, h3⟩ := this e (isEdge_mem.1 he)
    exact ⟨e', h2, isEdge_mem.2 h1, h3⟩
  oprev_iff := by
    have : ∀ e ∈ mixedMesh.edges ++ mixedMesh.edges.map Edge.sym, ∀ e' ∈ mixedMesh.edges ++ mixedMesh.edges.map Edge.sym,
      (mixedMesh.ring.oprev e' = some e ↔ mixedMesh.ring.onext e = some e') := by decide
    exact fun e e' h h' => this e (isEdge_mem.1 h) e' (isEdge_mem.1 h')
  one_ring := by
    have : ∀ e ∈ mixedMesh.edges ++ mixedMesh.edges.map Edge.sym, ∀ e' ∈ mixedMesh.edges ++ mixedMesh.edges.map Edge.sym,
      e.1 = e'.1 → ∃ k < 4, mixedMesh.onextIter k e = some e' := by decide
    intro e e' h h' heq
    obtain ⟨k, -, hk⟩ := this e (isEdge_mem.1 h) e' (isEdge_mem.1 h') heq
    exact ⟨k, hk⟩
  face := by
    intro x y z h
    have ht : mixedMesh.tris = [(0, 1, 2)] := rfl
    rw [ht] at h
    unfold HasTri at h
    simp only [List.mem_singleton, Prod.mk.injEq] at h
    rcases h with ⟨rfl, rfl, rfl⟩ | ⟨rfl, rfl, rfl⟩ | ⟨rfl, rfl, rfl⟩ <;> rfl
  point_edge := by
    intro v e h
    have : ∀ x ∈ [(0, ((0, 1) : Edge)), (1, (1, 2)), (2, (2, 0)), (3, (3, 4)), (4, (4, 1))],
      mixedMesh.IsEdge x.2 ∧ x.2.1 = x.1 := by decide
    exact this (v, e) (mem_of_lookup h)
  point_edge_some := by
    have : ∀ e ∈ mixedMesh.edges ++ mixedMesh.edges.map Edge.sym, (mixedMesh.ring.pointEdge e.1).isSome := by decide
    exact fun e he => this e (isEdge_mem.1 he)

theorem mixedMesh_needs (sch : Scheme) : sch.MixedNeeds mixedMesh where
  mixed :=
    { cells_some := by decide
      tri_edge := by
        have ht : mixedMesh.tris = [(0, 1, 2)] := rfl
        rw [ht]; decide
      edge_pos := by
        have : ∀ e ∈ mixedMesh.edges ++ mixedMesh.edges.map Edge.sym, (mixedMesh.pos e.1).isSome := by decide
        exact fun e he => this e (isEdge_mem.1 he) }
  ring := fun _ => mixedMesh_ring
  noIsolated := by
    intro _ v hv
    unfold Mesh.pos at hv
    rw [AMap.find?_isSome] at hv
    have : ∀ v ∈ mixedMesh.points.map Prod.fst, ∃ e ∈ mixedMesh.edges ++ mixedMesh.edges.map Edge.sym, e.1 = v := by decide
    obtain ⟨e, he, rfl⟩ := this v hv
    exact ⟨e.2, isEdge_mem.2 he⟩

theorem mixedMesh_not : ¬ mixedMesh.AllTriangles := by
  intro h
  have := h (1, some ⟨.polygon, [1, 0, 3, 4]⟩) (by simp [mixedMesh])
  revert this
  decide

end sample

/-- C35, the part that holds for all filters: on any mesh, with any selection and history, a run that returns has seen
triangles only.  Missing: that the failure is an exception, see the theorems below. -/
theorem C35_never_accepted_partial (inp out : Mesh P D) (lib : QELib) (cosn : Nat → K) (f : Filt) :
    (∀ sch, (cellUpdate sch lib cosn f inp).1 = .ok out → inp.AllTriangles) ∧
    (∀ sch, (edgeUpdate sch lib cosn f inp).1 = .ok out → inp.AllTriangles) := by
  constructor
  · intro sch h
    unfold cellUpdate at h
    rw [cellGenerate_phases] at h
    obtain ⟨s, -, h2⟩ := runFilter_ok_inv h
    exact cellCells_ok_inv h2
  · intro sch h
    unfold edgeUpdate at h
    rw [edgeGenerate_phases] at h
    obtain ⟨s, -, h2⟩ := runFilter_ok_inv h
    exact generateOutputCells_ok_inv h2

example (out : Mesh Q3 Nat) : (cellUpdate .sqrt3 someLib cos0 (usedFilt [0]) mixedMesh).1 ≠ .ok out := fun h =>
  mixedMesh_not ((C35_never_accepted_partial _ _ _ _ _).1 _ h)

/-- the area criterion that returns has seen triangles only -/
theorem C35_area_never_accepted_partial [LinearOrder K] (area : P → P → P → K) (maxArea : K) (m : Mesh P D) (old : List CId)
    (h : (areaCompute area maxArea m old).1 = .ok ()) : m.AllTriangles := by
  change (loopOrHang skipsCell (areaAct area maxArea m) m.cells []).1 = .ok () at h
  intro c hc
  obtain ⟨s', h3⟩ := forEach_ok_all h c hc
  simp only [skipsCell, asTriangle_eq] at h3
  cases ht : Cell.tri? c.2 with
  | some t => rfl
  | none => rw [ht] at h3; cases h3

example (area : Q3 → Q3 → Q3 → ℚ) (a : ℚ) : (areaCompute area a mixedMesh [7]).1 ≠ .ok () := fun h =>
  mixedMesh_not (C35_area_never_accepted_partial _ _ _ _ h)

/-- C35 for uniform runs of the cell filters: a cell that is not a triangle is reported with the exception. -/
theorem C35_uniform_throws_partial {sch : Scheme} (lib : QELib) (cosn : Nat → K) {f : Filt} {inp : Mesh P D}
    (hn : sch.MixedNeeds inp) (hu : f.cells = []) (hbad : ¬ inp.AllTriangles) :
    (cellUpdate sch lib cosn f inp).1 = .error (.exc .notTriangle) := by
  obtain ⟨e, rfl, he⟩ := cellUpdate_fails (lib := lib) (Q := fun e => e = .exc .notTriangle)
    (cellPoints_mixed cosn hn f (fun _ _ _ _ => rfl) (fun k hk => by rw [hu] at hk; cases hk)
      (fun k hk => by rw [hu] at hk; cases hk))
    (fun s h => hbad ((cellPoints_ok_inv h).1 hu))
  exact he

example (sch : Scheme) : (cellUpdate sch someLib cos0 (usedFilt []) mixedMesh).1 = .error (.exc .notTriangle) :=
  C35_uniform_throws_partial _ _ (mixedMesh_needs _) rfl mixedMesh_not

/-- C35 for selective runs of the cell filters: a *listed* cell that is not a triangle is reported with the exception. -/
theorem C35_listed_throws_partial {sch : Scheme} (lib : QELib) (cosn : Nat → K) {f : Filt} {inp : Mesh P D}
    (hn : sch.MixedNeeds inp) (hsel : inp.SelOK f.cells) {k : CId} (hk : k ∈ f.cells)
    (hbad : (inp.cells.find? k).bind Cell.tri? = none) :
    (cellUpdate sch lib cosn f inp).1 = .error (.exc .notTriangle) := by
  have hex : ∀ k ∈ f.cells, (inp.cells.find? k).isSome := fun k hk => (AMap.find?_isSome _ _).2 (hsel k hk)
  obtain ⟨e, rfl, he⟩ := cellUpdate_fails (lib := lib) (Q := fun e => e = .exc .notTriangle)
    (cellPoints_mixed cosn hn f (fun _ _ _ _ => rfl)
      (fun k hk h => by have := hex k hk; rw [h] at this; cases this) (fun k hk c _ _ => rfl))
    (fun s h => by
      obtain ⟨oc, h1, h2⟩ := (cellPoints_ok_inv h).2 k hk
      rw [h1, Option.bind_some] at hbad
      have hsome := hn.mixed.cells_some _ (mem_of_find? h1)
      obtain ⟨c, rfl⟩ := Option.isSome_iff_exists.1 hsome
      have := h2 c rfl
      rw [hbad] at this
      cases this)
  exact he

example (sch : Scheme) : (cellUpdate sch someLib cos0 (usedFilt [0, 1]) mixedMesh).1 = .error (.exc .notTriangle) :=
  C35_listed_throws_partial _ _ (mixedMesh_needs _) (by unfold Mesh.SelOK; decide) (k := 1) (by simp [usedFilt]) (by decide)

/-- C35 is false for selective runs: if all listed cells are triangles and another cell is not, then no exception is
thrown by any of the cell filters on any mesh (other than Loop's for a wire edge): the outcome is undefined behaviour or
a loop without end. -/
theorem C35_unlisted_refuted (sch : Scheme) (lib : QELib) (cosn : Nat → K) {f : Filt} {inp : Mesh P D}
    (hne : f.cells ≠ []) (hlist : ∀ k ∈ f.cells, ∀ c, inp.cells.find? k = some (some c) → (Cell.tri? (some c)).isSome)
    (hbad : ¬ inp.AllTriangles) :
    ∃ e, (cellUpdate sch lib cosn f inp).1 = .error e ∧ ((∃ u, e = .ub u) ∨ e = .hang ∨ e = .exc .wireEdge) := by
  have herr : ErrIn (fun e => (∃ u, e = .ub u) ∨ e = .hang ∨ e = .exc .wireEdge) (cellUpdate sch lib cosn f inp).1 := by
    unfold cellUpdate
    rw [cellGenerate_phases]
    refine runFilter_hoare (cellPoints_any sch cosn inp f (fun u => Or.inl ⟨u, rfl⟩) (Or.inr (Or.inl rfl))
      (Or.inr (Or.inr rfl)) (fun h => absurd h hne) (fun k hk c hc h => ?_)) (fun s _ e he => ?_)
    · have := hlist k hk c hc
      rw [h] at this
      cases this
    · rcases (cellCells_hoare sch inp).error (s := s) trivial he with h | h
      · exact Or.inl h
      · exact Or.inr (Or.inl h)
  rcases hr : (cellUpdate sch lib cosn f inp).1 with e | out
  · exact ⟨e, rfl, herr e hr⟩
  · exact absurd ((C35_never_accepted_partial _ _ _ _ _).1 _ hr) hbad

/-- the loop without end: a triangle listed, its neighbour a quadrilateral -/
theorem C35_unlisted_hang_refuted (sch : Scheme) :
    (cellUpdate sch someLib cos0 (usedFilt [0]) mixedMesh).1 = .error .hang := by
  rw [← isHang_iff]
  cases sch <;> decide +kernel

/-- C35 is false for the edge filters: on every mesh with a cell that is not a triangle and with every list, the outcome
is undefined behaviour, a loop without end, or an exception about something else. -/
theorem C35_edge_refuted (sch : EdgeScheme) (lib : QELib) (cosn : Nat → K) (f : Filt) {inp : Mesh P D}
    (hbad : ¬ inp.AllTriangles) :
    ∃ e, (edgeUpdate sch lib cosn f inp).1 = .error e ∧
      ((∃ u, e = .ub u) ∨ e = .hang ∨ e = .exc .wireEdge ∨ e = .exc .noEdges) := by
  have herr : ErrIn (fun e => (∃ u, e = .ub u) ∨ e = .hang ∨ e = .exc .wireEdge ∨ e = .exc .noEdges)
      (edgeUpdate sch lib cosn f inp).1 := by
    unfold edgeUpdate
    rw [edgeGenerate_phases]
    refine runFilter_hoare (edgePoints_any sch cosn inp f (fun u => Or.inl ⟨u, rfl⟩) (Or.inr (Or.inl rfl))
      (Or.inr (Or.inr (Or.inl rfl))) (Or.inr (Or.inr (Or.inr rfl)))) (fun s _ e he => ?_)
    rcases (generateOutputCells_hoare inp).error (s := s) trivial he with h | h
    · exact Or.inl h
    · exact Or.inr (Or.inl h)
  rcases hr : (edgeUpdate sch lib cosn f inp).1 with e | out
  · exact ⟨e, rfl, herr e hr⟩
  · exact absurd ((C35_never_accepted_partial _ _ _ _ _).2 _ hr) hbad

/-- the loop without end, with all edges and with a list -/
theorem C35_edge_hang_refuted (sch : EdgeScheme) :
    (edgeUpdate sch someLib cos0 Filt.new mixedMesh).1 = .error .hang ∧
    (edgeUpdate sch someLib cos0 (Filt.new.setEdges [some (1, 2)]) mixedMesh).1 = .error .hang := by
  rw [← isHang_iff, ← isHang_iff]
  cases sch <;> decide +kernel

/-- C35 is false for the area criterion: on every mesh with a cell that is not a triangle and whose triangles have
points, `Compute` does not end, for any threshold and area function. -/
theorem C35_area_refuted [LinearOrder K] (area : P → P → P → K) (maxArea : K) {m : Mesh P D}
    (hp : ∀ t ∈ m.tris, ∀ v ∈ t.verts, (m.pos v).isSome) (hbad : ¬ m.AllTriangles) :
    (∀ old, (areaCompute area maxArea m old).1 = .error .hang) ∧ ∀ n, areaComputeFuel area maxArea m n = none := by
  have hact : ∀ (x : CId × Option Cell) (s : List CId), x ∈ m.cells → ∃ s', areaAct area maxArea m x s = (.ok (), s') := by
    intro x s hx
    unfold areaAct
    rw [asTriangle_eq]
    cases ht : Cell.tri? x.2 with
    | none => exact ⟨s, rfl⟩
    | some t =>
      have htm : t ∈ m.tris := List.mem_filterMap.2 ⟨x, hx, ht⟩
      obtain ⟨pa, ha⟩ := Mesh.getPoint_some (hp t htm t.1 (by simp [Tri.verts]))
      obtain ⟨pb, hb⟩ := Mesh.getPoint_some (hp t htm t.2.1 (by simp [Tri.verts]))
      obtain ⟨pc, hc⟩ := Mesh.getPoint_some (hp t htm t.2.2 (by simp [Tri.verts]))
      simp only [ha, hb, hc, lift_ok_bind]
      split <;> exact ⟨_, rfl⟩
  have key : ∀ (l : AMap (Option Cell)) (s : List CId), (∀ c ∈ l, c ∈ m.cells) → (∃ c ∈ l, Cell.tri? c.2 = none) →
      (loopOrHang skipsCell (areaAct area maxArea m) l s).1 = .error .hang ∧
      ∀ n, cursorLoop skipsCell (areaAct area maxArea m) n l s = none := by
    intro l
    induction l with
    | nil => rintro s - ⟨c, hc, -⟩; cases hc
    | cons x l ih =>
      rintro s hl ⟨c, hc, ht⟩
      cases hx : skipsCell x with
      | true => exact ⟨by rw [loopOrHang_cons_skip hx], cursorLoop_stuck hx⟩
      | false =>
        obtain ⟨s', hs'⟩ := hact x s (hl x (by simp))
        rw [loopOrHang_cons_ok hx hs']
        have hcl : c ∈ l := by
          rcases List.mem_cons.1 hc with rfl | h
          · simp [skipsCell, asTriangle_eq, ht] at hx
          · exact h
        obtain ⟨k1, k2⟩ := ih s' (fun c hc => hl c (by simp [hc])) ⟨c, hcl, ht⟩
        refine ⟨k1, fun n => ?_⟩
        cases n with
        | zero => rfl
        | succ n =>
          simp only [cursorLoop, hx, Bool.false_eq_true, if_false, hs']
          exact k2 n
  have hex : ∃ c ∈ m.cells, Cell.tri? c.2 = none := by
    unfold Mesh.AllTriangles at hbad
    push Not at hbad
    obtain ⟨c, hc, h⟩ := hbad
    exact ⟨c, hc, by simpa using h⟩
  obtain ⟨k1, k2⟩ := key m.cells [] (fun _ h => h) hex
  exact ⟨fun _ => k1, k2⟩

example (area : Q3 → Q3 → Q3 → ℚ) (a : ℚ) : (areaCompute area a mixedMesh [7]).1 = .error .hang :=
  (C35_area_refuted area a (by
    have ht : mixedMesh.tris = [(0, 1, 2)] := rfl
    rw [ht]; decide) mixedMesh_not).1 [7]

/-- What the outcome `hang` of the model stands for: the literal loops of the C++ code do not end after any number of
steps. -/
theorem C35_hang_is_endless (inp : Mesh P D) (s : St P D) :
    ((generateOutputCells inp s).1 = .error .hang ↔ ∀ n, generateOutputCellsFuel inp n s = none) ∧
    ((sq3OutputCells inp s).1 = .error .hang ↔ ∀ n, sq3OutputCellsFuel inp n s = none) :=
  ⟨generateOutputCells_hang_iff inp s, sq3OutputCells_hang_iff inp s⟩

example (n : Nat) : generateOutputCellsFuel mixedMesh n (⟨Filt.new, Mesh.empty⟩ : St Q3 Nat) = none :=
  ((C35_hang_is_endless mixedMesh _).1.1 (by rfl)) n

/-- C36, the part that holds: on any mesh, a selective run that returns had a list of ids of existing cells. -/
theorem C36_never_accepted_partial {sch : Scheme} {lib : QELib} {cosn : Nat → K} {f : Filt} {inp out : Mesh P D}
    (h : (cellUpdate sch lib cosn f inp).1 = .ok out) : inp.SelOK f.cells := by
  unfold cellUpdate at h
  rw [cellGenerate_phases] at h
  obtain ⟨s, h1, -⟩ := runFilter_ok_inv h
  intro k hk
  obtain ⟨oc, h2, -⟩ := (cellPoints_ok_inv h1).2 k hk
  rw [← AMap.find?_isSome, h2]
  rfl

/-- C36 is false: on every valid mesh and for each of the four filters, a list with an id of no cell has undefined
behaviour (a `find` that returned `end()` is dereferenced). -/
theorem C36_absent_id_refuted {sch : Scheme} (lib : QELib) (cosn : Nat → K) {f : Filt} {inp : Mesh P D}
    (hn : sch.Needs inp) (hbad : ¬ inp.SelOK f.cells) :
    (cellUpdate sch lib cosn f inp).1 = .error (.ub .missingKey) := by
  have hne : f.cells ≠ [] := by
    intro h
    rw [h] at hbad
    exact hbad (selOK_nil _)
  have htri : ∀ c ∈ inp.cells, Cell.tri? c.2 ≠ none := by
    intro c hc h
    obtain ⟨t, h1, -⟩ := hn.valid.cells_tri c hc
    rw [h1] at h
    cases h
  obtain ⟨e, rfl, he⟩ := cellUpdate_fails (lib := lib) (Q := fun e => e = .ub .missingKey)
    (cellPoints_mixed cosn hn.mixed f (fun h => absurd h hne) (fun _ _ _ => rfl)
      (fun k hk c hc h => absurd h (htri _ (mem_of_find? hc))))
    (fun s h => hbad fun k hk => by
      obtain ⟨oc, h2, -⟩ := (cellPoints_ok_inv h).2 k hk
      rw [← AMap.find?_isSome, h2]
      rfl)
  exact he

example (sch : Scheme) : (cellUpdate sch someLib cos0 (usedFilt [1, 4, 0]) patchMesh).1 = .error (.ub .missingKey) :=
  C36_absent_id_refuted _ _ (patchMesh_needs _) (by
    intro h
    have := h 4 (by simp [usedFilt])
    revert this
    decide)

end Verif
