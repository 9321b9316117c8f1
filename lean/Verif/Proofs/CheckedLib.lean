import Verif.Proofs.Check
import Verif.Proofs.Lawful
/-
A library that obeys the laws and can be computed with where the rings of `ringOf` pass the check.
-/
namespace Verif
variable {P D : Type}

/-- the rings of `ringOf` are good -/
def checkLink (T : List Tri) : Bool :=
  decide (dartsOf T).Nodup && checkRing T (ringOf T) &&
  (T.all fun t => t.verts.all fun v => ((ringOf T).pointEdge v).all fun e => (allEdges T).contains e && e.1 == v)

/-- the rings of `ringOf` where they are good, else those of `someLib` -/
noncomputable def checkedLib : QELib where
  link edges left cells :=
    if checkLink (cells.filterMap fun c => Cell.tri? c.2) = true then ringOf (cells.filterMap fun c => Cell.tri? c.2)
    else someLib.link edges left cells

theorem Mesh.RingOK.congr_edges {P' D' : Type} {m : Mesh P D} {m' : Mesh P' D'} (h : m.RingOK) (hE : ∀ e, m'.IsEdge e ↔ m.IsEdge e)
    (hT : m'.tris = m.tris) (h3 : m'.ring = m.ring) : m'.RingOK := by
  have hI : ∀ k e, m'.onextIter k e = m.onextIter k e := by
    intro k e
    induction k with
    | zero => rfl
    | succ k ih => simp only [Mesh.onextIter, ih, h3]
  constructor
  · intro e he
    obtain ⟨e', a, b, c⟩ := h.onext_some e ((hE e).1 he)
    exact ⟨e', by rw [h3]; exact a, (hE _).2 b, c⟩
  · intro e e' he he'
    rw [h3]
    exact h.oprev_iff e e' ((hE _).1 he) ((hE _).1 he')
  · intro e e' he he' heq
    obtain ⟨k, hk⟩ := h.one_ring e e' ((hE _).1 he) ((hE _).1 he') heq
    exact ⟨k, (hI k e).trans hk⟩
  · intro x y z hx
    rw [hT] at hx
    rw [h3]; exact h.face x y z hx
  · intro v e he
    rw [h3] at he
    have := h.point_edge v e he
    exact ⟨(hE _).2 this.1, this.2⟩
  · intro e he
    rw [h3]; exact h.point_edge_some e ((hE _).1 he)

theorem checkedLib_lawful : checkedLib.Lawful := by
  intro P D m hv
  by_cases hc : checkLink m.tris = true
  · have hl : checkedLib.link m.edges m.left m.cells = ringOf m.tris := if_pos hc
    rw [hl]
    unfold checkLink at hc
    simp only [Bool.and_eq_true, decide_eq_true_eq] at hc
    have hr := checkRing_sound (P := P) (D := D) (pts := []) hc.1.1 hc.1.2 hc.2 (pointEdge_none m.tris) none
    refine hr.congr_edges (m' := { m with ring := ringOf m.tris }) (fun e => ?_) ?_ rfl
    · have h1 : Mesh.IsEdge { m with ring := ringOf m.tris } e ↔ m.IsEdge e := Iff.rfl
      have h2 : (meshOf (P := P) (D := D) [] m.tris none (ringOf m.tris)).IsEdge e ↔ e ∈ edgeList m.tris ∨ e.sym ∈ edgeList m.tris := Iff.rfl
      rw [h1, h2, mem_edgeList]
      exact hv.edges_iff e
    · exact (meshOf_tris hc.1.1 _ _).symm
  · have hl : checkedLib.link m.edges m.left m.cells = someLib.link m.edges m.left m.cells := if_neg hc
    rw [hl]
    exact someLib_lawful P D m hv

end Verif
