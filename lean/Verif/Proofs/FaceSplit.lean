import Verif.Proofs.Emit
import Verif.Proofs.Children
import Verif.Model.EdgeFilters
/-
The cell phase of the face-split filters adds exactly the children of the input triangles.
-/
namespace Verif
variable {P D : Type}

theorem modifyFilt_bind {α : Type} (g : Filt → Filt) (k : Unit → M P D α) (s : St P D) :
    Prog.bind (modifyFilt g) k s = k () { s with filt := g s.filt } := rfl

theorem modifyOut_bind {α : Type} (g : Mesh P D → Mesh P D) (k : Unit → M P D α) (s : St P D) :
    Prog.bind (modifyOut g) k s = k () { s with out := g s.out } := rfl

theorem numberOfPoints_bind {α : Type} (k : Nat → M P D α) (s : St P D) :
    Prog.bind numberOfPoints k s = k s.out.points.length s := rfl

theorem lift_ok_bind {σ α β : Type} (a : α) (k : α → Prog σ β) : Prog.bind (Prog.lift (.ok a)) k = k a := rfl

theorem asTriangle_eq : asTriangle = Cell.tri? := by
  funext c
  rcases c with _ | ⟨ty, pts⟩
  · rfl
  · cases ty
    · rcases pts with _ | ⟨a, _ | ⟨b, _ | ⟨c, _ | ⟨d, l⟩⟩⟩⟩ <;> rfl
    · rfl

@[simp] theorem tri?_cell (t : Tri) : Cell.tri? (some t.cell) = some t := rfl

/-- all three edges carry new points -/
def allSplit (μ : Edge → Option PId) (t : Tri) : Bool :=
  (μ (t.1, t.2.1)).isSome && (μ (t.2.1, t.2.2)).isSome && (μ (t.2.2, t.1)).isSome

/-- the triangles added for one input triangle -/
def childItemsOf (μ : Edge → Option PId) (u : Bool) (id : CId) (t : Tri) : List Item :=
  (t.children μ).map fun d => (id, d, allSplit μ t && !u)

/-- the triangles added by the cell phase -/
def childItems (μ : Edge → Option PId) (u : Bool) (cells : AMap (Option Cell)) : List Item :=
  cells.flatMap fun c =>
    match Cell.tri? c.2 with
    | some t => childItemsOf μ u c.1 t
    | none => []

theorem findEdge_of_hasEdge {inp : Mesh P D} {x y : PId} (h : inp.hasEdge (x, y) = true) :
    inp.findEdge x y = some (x, y) := by
  unfold Mesh.findEdge; simp [h]

set_option linter.unusedSimpArgs false in
theorem outputCellsOfTriangle_eq {inp : Mesh P D} {id : CId} {t : Tri} (hE : ∀ e ∈ t.darts, inp.hasEdge e = true)
    {s : St P D} {μ : Edge → Option PId} {u : Bool} (hμ : s.filt.epi = μ) (hu : s.filt.uniform = u) :
    outputCellsOfTriangle inp id t s = Prog.forEach (emitOne inp) (childItemsOf μ u id t) s := by
  obtain ⟨a, b, c⟩ := t
  have e0 := findEdge_of_hasEdge (hE (a, b) (by simp [Tri.darts]))
  have e1 := findEdge_of_hasEdge (hE (b, c) (by simp [Tri.darts]))
  have e2 := findEdge_of_hasEdge (hE (c, a) (by simp [Tri.darts]))
  have s0 : (splitArr inp s.filt.epi (a, b, c)).edge 0 = μ (a, b) := by simp [splitArr, triArr, e0, hμ]
  have s1 : (splitArr inp s.filt.epi (a, b, c)).edge 1 = μ (b, c) := by simp [splitArr, triArr, e1, hμ]
  have s2 : (splitArr inp s.filt.epi (a, b, c)).edge 2 = μ (c, a) := by simp [splitArr, triArr, e2, hμ]
  have t0 : (splitArr inp s.filt.epi (a, b, c)).tri 0 = a := rfl
  have t1 : (splitArr inp s.filt.epi (a, b, c)).tri 1 = b := rfl
  have t2 : (splitArr inp s.filt.epi (a, b, c)).tri 2 = c := rfl
  unfold outputCellsOfTriangle
  generalize splitArr inp s.filt.epi (a, b, c) = sp at *
  simp only
  rw [hu]
  have r0 : ∀ (m : PId), μ (a, b) = some m → (sp.readEdge 0 : M P D PId) = Prog.pure m := by
    intro m hm; funext s; simp [Split.readEdge, s0, hm, Prog.pure]
  have r1 : ∀ (m : PId), μ (b, c) = some m → (sp.readEdge 1 : M P D PId) = Prog.pure m := by
    intro m hm; funext s; simp [Split.readEdge, s1, hm, Prog.pure]
  have r2 : ∀ (m : PId), μ (c, a) = some m → (sp.readEdge 2 : M P D PId) = Prog.pure m := by
    intro m hm; funext s; simp [Split.readEdge, s2, hm, Prog.pure]
  rcases h0 : μ (a, b) with _ | m0 <;> rcases h1 : μ (b, c) with _ | m1 <;> rcases h2 : μ (c, a) with _ | m2 <;>
    simp only [s0, s1, s2, h0, h1, h2, Option.isSome_none, Option.isSome_some, List.filter_cons_of_pos,
      List.filter_cons_of_neg, List.filter_nil, Bool.false_eq_true, not_false_eq_true, childItemsOf, Tri.children,
      List.map_cons, List.map_nil, Prog.forEach, emitOne, allSplit, Bool.and_false, Bool.and_true, Bool.false_and,
      if_false, Prog.bind_assoc', Prog.pure_bind', splitOne, splitTwo, splitThree, t0, t1, t2] <;>
    (try rw [r0 _ h0]) <;> (try rw [r1 _ h1]) <;> (try rw [r2 _ h2]) <;>
    (try simp [Prog.pure_bind', t0, t1, t2])
  rcases u with _ | _ <;> simp [Prog.pure_bind']

theorem childItems_tris (μ : Edge → Option PId) (u : Bool) (m : Mesh P D) :
    (childItems μ u m.cells).map (fun x => x.2.1) = m.tris.flatMap (Tri.children μ) := by
  unfold childItems Mesh.tris
  induction m.cells with
  | nil => rfl
  | cons c cs ih =>
    rw [List.flatMap_cons, List.map_append, ih]
    rcases h : Cell.tri? c.2 with _ | t
    · rw [List.filterMap_cons_none (by exact h)]; simp
    · rw [List.filterMap_cons_some (by exact h), List.flatMap_cons]
      simp [childItemsOf, Function.comp_def]

namespace Mesh.Valid
variable {m : Mesh P D} (h : m.Valid)
include h

theorem mem_tris {t : Tri} : t ∈ m.tris ↔ ∃ k, (k, some t.cell) ∈ m.cells := by
  unfold Mesh.tris
  rw [List.mem_filterMap]
  constructor
  · rintro ⟨⟨k, c⟩, hc, ht⟩
    obtain ⟨t', h1, _⟩ := h.cells_tri _ hc
    simp only at h1 ht
    rw [h1, tri?_cell] at ht
    have := Option.some.inj ht
    subst this
    rw [h1] at hc
    exact ⟨k, hc⟩
  · rintro ⟨k, hk⟩; exact ⟨_, hk, rfl⟩

theorem hasEdge {e : Edge} (he : e ∈ dartsOf m.tris) : m.hasEdge e = true := by
  rw [hasEdge_iff]; exact (h.edges_iff e).2 (Or.inl he)

theorem hasEdge_iff_dart (e : Edge) : m.hasEdge e = true ↔ e ∈ dartsOf m.tris ∨ e.sym ∈ dartsOf m.tris := by
  rw [hasEdge_iff]; exact h.edges_iff e

theorem verts_lt {t : Tri} (ht : t ∈ m.tris) {v : PId} (hv : v ∈ t.verts) : v < m.points.length := by
  obtain ⟨k, hk⟩ := h.mem_tris.1 ht
  obtain ⟨t', h1, h2⟩ := h.cells_tri _ hk
  have : Cell.tri? (some t.cell) = Cell.tri? (some t'.cell) := by rw [← h1]
  simp only [tri?_cell, Option.some.injEq] at this
  subst this
  exact h2 v hv

theorem points_eq : m.points = AMap.dense (m.points.map Prod.snd) := AMap.eq_dense _ h.points_dense

theorem find?_tri {k : CId} {t : Tri} : m.cells.find? k = some (some t.cell) ↔ (k, some t.cell) ∈ m.cells :=
  AMap.find?_eq_some_of_sorted _ h.cells_sorted _ _

theorem left_tri {e : Edge} : (∃ k, m.left e = some k) ↔ e ∈ dartsOf m.tris := by
  rw [mem_dartsOf]
  constructor
  · rintro ⟨k, hk⟩
    obtain ⟨t, ht, he⟩ := (h.left_iff e k).1 hk
    exact ⟨t, h.mem_tris.2 ⟨k, ht⟩, he⟩
  · rintro ⟨t, ht, he⟩
    obtain ⟨k, hk⟩ := h.mem_tris.1 ht
    exact ⟨k, (h.left_iff e k).2 ⟨t, hk, he⟩⟩

theorem leftSet_iff {e : Edge} : m.leftSet e = true ↔ e ∈ dartsOf m.tris := by
  rw [← h.left_tri, Mesh.leftSet, Option.isSome_iff_exists]

end Mesh.Valid

/-- The cell phase on a valid mesh is the emission of the children. -/
theorem generateOutputCells_eq {inp : Mesh P D} (hv : inp.Valid) {s : St P D} {μ : Edge → Option PId} {u : Bool}
    (hμ : s.filt.epi = μ) (hu : s.filt.uniform = u) :
    generateOutputCells inp s =
      Prog.forEach (emitOne inp) (childItems μ u inp.cells) { s with filt := { s.filt with cells := [] } } := by
  unfold generateOutputCells loopOrHang
  rw [modifyFilt_bind]
  unfold childItems
  refine Prog.forEach_flatMap (fun s => s.filt.epi = μ ∧ s.filt.uniform = u) ?_ _ ?_ _ ⟨hμ, hu⟩
  · intro x s hs
    have := emitOne_filt inp x s
    rw [this.1, this.2]; exact hs
  · rintro ⟨k, c⟩ hc s ⟨h1, h2⟩
    obtain ⟨t, rfl, _⟩ := hv.cells_tri _ hc
    have ht : t ∈ inp.tris := hv.mem_tris.2 ⟨k, hc⟩
    simp only [skipsCell, actCell, asTriangle_eq, tri?_cell, Option.isNone_some, Bool.false_eq_true, if_false]
    exact outputCellsOfTriangle_eq (fun e he => hv.hasEdge (mem_dartsOf.2 ⟨t, ht, he⟩)) h1 h2

end Verif
