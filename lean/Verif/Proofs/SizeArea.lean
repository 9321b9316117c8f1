import Verif.Proofs.Size
import Verif.Properties.CondExact
import Verif.Properties.CondSafe
/-
One iteration of the conditional filter with the Linear cell filter and the area criterion: every depth goes down by one.
-/
namespace Verif
set_option linter.unusedSectionVars false
variable {E D : Type} [NormedAddCommGroup E] [InnerProductSpace ℝ E] {inp out : Mesh E D} {lib : QELib} {cosn : Nat → ℝ}

/-- what one iteration does to the depths -/
structure DepthStep (A : ℝ) (m out : Mesh E D) (μ : Edge → Option PId) : Prop where
  tris : out.tris = m.tris.flatMap (Tri.children μ)
  label : Labelling m.tris μ
  depth : ∀ t ∈ m.tris, ∀ c ∈ t.children μ, out.depth A c = m.depth A t - 1
  some : ∀ e ∈ dartsOf m.tris, (μ e).isSome ↔ 0 < depthAt m.tris (m.depth A) e ∨ 0 < depthAt m.tris (m.depth A) e.sym

theorem depth_pos {A : ℝ} (hA : 0 < A) {m : Mesh E D} {t : Tri} : 0 < m.depth A t ↔ A < m.areaOf t := by
  rw [Nat.pos_iff_ne_zero, ← not_le]
  exact not_congr (quarterings_zero hA)

theorem depth_step {A : ℝ} (hA : 0 < A) {m : Mesh E D} {sel : List CId} {f f' : Filt} (hv : m.Valid) (hsel : m.SelOK sel)
    (hne : sel ≠ []) (hex : ∀ k, k ∈ sel ↔ m.TooLarge heronArea A k)
    (h : cellUpdate .linear lib cosn (f.setCells sel) m = (.ok out, f')) :
    DepthStep A m out (m.edgePoint sel) := by
  have hn : Scheme.linear.Needs m := ⟨hv, by simp, by simp⟩
  have S : SplitAtMid m out (m.edgePoint sel) := linear_split hv (f := f.setCells sel) hsel h
  have hbig : ∀ s, s ∈ m.selected sel ↔ s ∈ m.tris ∧ A < m.areaOf s := by
    intro s
    rw [selected_big hv hne hex]
    exact and_congr_right fun hs => bigTri_iff hv hs
  refine ⟨S.tris, (cellUpdate_result (by decide) hn (f := f.setCells sel) hsel h).1.label, ?_, ?_⟩
  · intro t ht c hc
    unfold Mesh.depth
    by_cases hb : A < m.areaOf t
    · rw [S.area_quarter ht (selected_split ((hbig t).2 ⟨ht, hb⟩)) hc, quarterings_quarter hA hb]
    · have h1 := not_lt.1 hb
      rw [(quarterings_zero hA).2 h1, (quarterings_zero hA).2 ((S.area_le ht hc).trans h1)]
  · have key : ∀ e, 0 < depthAt m.tris (m.depth A) e ↔ e ∈ dartsOf (m.selected sel) := by
      intro e
      rw [mem_dartsOf]
      constructor
      · intro hp
        rcases depthAt_cases m.tris e with ⟨s, hs, h1, h2⟩ | ⟨-, h2⟩
        · rw [h2, depth_pos hA] at hp
          exact ⟨s, (hbig s).2 ⟨hs, hp⟩, h1⟩
        · rw [h2] at hp; omega
      · rintro ⟨s, hs, he⟩
        rw [depthAt_of_mem hv.good _ ((hbig s).1 hs).1 he, depth_pos hA]
        exact ((hbig s).1 hs).2
    intro e _
    rw [edgePoint_isSome, key, key]

theorem DepthStep.predicted {A : ℝ} {m : Mesh E D} {μ : Edge → Option PId} (S : DepthStep A m out μ) (hv : m.Valid) :
    out.predicted A = m.predicted A ∧ out.predictedRim A = m.predictedRim A := by
  constructor
  · unfold Mesh.predicted
    rw [S.tris]
    exact pieces_invariant hv.good S.label S.depth S.some
  · have := rim_invariant hv.good S.label S.depth S.some
    rw [← S.tris] at this
    exact this

theorem predicted_copy {A : ℝ} (hv : inp.Valid) :
    (copyGeometry lib inp).predicted A = inp.predicted A ∧ (copyGeometry lib inp).predictedRim A = inp.predictedRim A := by
  unfold Mesh.predicted Mesh.predictedRim Mesh.depth
  rw [areaOf_copyGeometry hv, copyGeometry_tris lib hv]
  exact ⟨rfl, rfl⟩

theorem predicted_done {A : ℝ} (hA : 0 < A) {m : Mesh E D} (h : ∀ t ∈ m.tris, m.areaOf t ≤ A) :
    m.predicted A = m.tris.length ∧ m.predictedRim A = m.rimLength := by
  have h0 : ∀ t ∈ m.tris, m.depth A t = 0 := fun t ht => (quarterings_zero hA).2 (h t ht)
  refine ⟨pieces_zero h0, ?_⟩
  unfold Mesh.predictedRim Mesh.rimLength
  simp [depthAt_zero h0]

/-- twice the Euler characteristic -/
theorem euler_rim {m : Mesh E D} (hv : m.Valid) :
    2 * m.euler = 2 * (m.points.length : Int) - m.cells.length - m.rimLength := by
  have e1 := sym_count (E := m.edges) hv.good.oriented (fun e => hv.good.no_loop) hv.edges_once hv.edges_iff
  change _ = _ + m.rimLength at e1
  rw [dartsOf_length, hv.tris_length] at e1
  unfold Mesh.euler
  omega

end Verif
