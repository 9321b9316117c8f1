import Verif.Spec.History
import Verif.Proofs.Alike
import Verif.Properties.Points
/-
C25: what earlier runs of a cell filter object leave behind.
-/
namespace Verif
variable {K P D : Type} [Field K] [Zero P] [Add P] [SMul K P]

/-- C25 for Linear, ModifiedButterfly and SquareThree: take any two histories of calls (with any meshes, runs that
failed included) after which the two objects hold the same list of cells; the next run on any mesh has the same
result, and leaves the same list of cells. -/
theorem C25_history_irrelevant {sch : Scheme} (hs : sch ≠ .loop) (lib : QELib) (cosn : Nat → K)
    (h₁ h₂ : List (CellCall P D))
    (hsel : (afterCalls sch lib cosn h₂).cells = (afterCalls sch lib cosn h₁).cells) (inp : Mesh P D) :
    (cellUpdate sch lib cosn (afterCalls sch lib cosn h₂) inp).1 =
      (cellUpdate sch lib cosn (afterCalls sch lib cosn h₁) inp).1 ∧
    (cellUpdate sch lib cosn (afterCalls sch lib cosn h₂) inp).2.cells =
      (cellUpdate sch lib cosn (afterCalls sch lib cosn h₁) inp).2.cells :=
  cellUpdate_history hs lib cosn inp hsel

/-- In particular: `SetCellsToBeSubdivided(l)` on an object with any history is as good as on a new object. -/
theorem C25_set_cells {sch : Scheme} (hs : sch ≠ .loop) (lib : QELib) (cosn : Nat → K)
    (h : List (CellCall P D)) (l : List CId) (inp : Mesh P D) :
    (cellUpdate sch lib cosn ((afterCalls sch lib cosn h).setCells l) inp).1 =
      (cellUpdate sch lib cosn (Filt.new.setCells l) inp).1 :=
  (cellUpdate_history hs lib cosn inp (f := Filt.new.setCells l) (g := (afterCalls sch lib cosn h).setCells l) rfl).1

example : (cellUpdate .butterfly someLib cos0 ((afterCalls .butterfly someLib cos0
      [.set [7, 8], .run tetraMesh, .add 2, .run patchMesh, .run tetraMesh]).setCells [1, 3]) patchMesh).1 =
    (cellUpdate .butterfly someLib cos0 (Filt.new.setCells [1, 3]) patchMesh).1 :=
  C25_set_cells (by decide) _ _ _ _ _

/-- C25 for Loop, the part that holds: the result also depends on the flag `m_Uniform` that the last run left; with
equal flags it depends on nothing else.  What is missing is independence of that flag; see
`C25_history_loop_refuted`. -/
theorem C25_history_loop_partial (lib : QELib) (cosn : Nat → K) (h₁ h₂ : List (CellCall P D))
    (hsel : (afterCalls .loop lib cosn h₂).cells = (afterCalls .loop lib cosn h₁).cells)
    (hu : (afterCalls .loop lib cosn h₂).uniform = (afterCalls .loop lib cosn h₁).uniform) (inp : Mesh P D) :
    (cellUpdate .loop lib cosn (afterCalls .loop lib cosn h₂) inp).1 =
      (cellUpdate .loop lib cosn (afterCalls .loop lib cosn h₁) inp).1 ∧
    (cellUpdate .loop lib cosn (afterCalls .loop lib cosn h₂) inp).2.cells =
      (cellUpdate .loop lib cosn (afterCalls .loop lib cosn h₁) inp).2.cells :=
  cellUpdate_history_loop lib cosn inp hsel hu

/-- the flag after a run on a valid mesh tells whether that run was uniform -/
theorem C25_loop_flag {lib : QELib} {cosn : Nat → K} {f : Filt} {inp : Mesh P D} (hn : Scheme.loop.Needs inp)
    (hsel : inp.SelOK f.cells) : (cellUpdate .loop lib cosn f inp).2.uniform = f.cells.isEmpty := by
  obtain ⟨out, f', h, R⟩ := cellUpdate_ok (sch := .loop) (by decide) lib cosn hn hsel
  rw [h, R.filt]

section real

theorem patchR_needs (sch : Scheme) : sch.Needs patchR :=
  ⟨patchR_ok.1, fun _ => patchR_ok.2.1, fun _ => patchR_ok.2.2.1⟩

theorem patchR_point3 {w : PId} : (w = 0 ∨ w = 1) ↔ patchR.IsEdge (3, w) ∧
    ((∀ c, ¬ HasTri patchR.tris 3 w c) ∨ ∀ c, ¬ HasTri patchR.tris w 3 c) := by
  constructor
  · rintro (rfl | rfl)
    · refine ⟨by unfold Mesh.IsEdge; decide, Or.inl fun c hc => ?_⟩
      have := hc.dart
      rw [patchR_ok.2.2.2] at this
      revert this; decide
    · refine ⟨by unfold Mesh.IsEdge; decide, Or.inr fun c hc => ?_⟩
      have := hc.dart
      rw [patchR_ok.2.2.2] at this
      revert this; decide
  · rintro ⟨hw, -⟩
    have := (patchR_ok.1.edges_iff (3, w)).1 hw
    rw [patchR_ok.2.2.2] at this
    rcases this with h1 | h1 <;> simp [dartsOf, patch, Tri.darts, Edge.sym] at h1 <;> simp [h1]

/-- A uniform run of a new Loop filter and a uniform run of one that made a selective run before give different
meshes: the second one does not smooth the points. -/
theorem C25_history_loop_refuted (lib : QELib) : ∃ (h₁ h₂ : List (CellCall ℝ Nat)) (inp : Mesh ℝ Nat) (m₁ m₂ : Mesh ℝ Nat),
    Scheme.loop.Needs inp ∧
    (afterCalls .loop lib realCos h₂).cells = (afterCalls .loop lib realCos h₁).cells ∧
    (cellUpdate .loop lib realCos (afterCalls .loop lib realCos h₁) inp).1 = .ok m₁ ∧
    (cellUpdate .loop lib realCos (afterCalls .loop lib realCos h₂) inp).1 = .ok m₂ ∧
    m₁.pos 3 = some (19 / 2) ∧ m₂.pos 3 = some 12 := by
  obtain ⟨m₁, f₁, e₁, -⟩ := cellUpdate_ok (sch := .loop) (by decide) lib realCos (f := Filt.new) (patchR_needs _)
    (selOK_nil _)
  have ha : afterCalls .loop lib realCos [.set [0], .run patchR, .set []] =
      (cellUpdate .loop lib realCos (Filt.new.setCells [0]) patchR).2.setCells [] := by
    simp only [afterCalls, List.foldl_cons, List.foldl_nil]
  have hflag := C25_loop_flag (lib := lib) (cosn := realCos) (f := Filt.new.setCells [0]) (patchR_needs _)
    (by unfold Mesh.SelOK; decide)
  generalize hg : (cellUpdate .loop lib realCos (Filt.new.setCells [0]) patchR).2 = g at ha hflag
  have hu : (afterCalls .loop lib realCos [.set [0], .run patchR, .set []]).uniform = false := by
    rw [ha]; exact hflag
  have hc : (afterCalls .loop lib realCos [.set [0], .run patchR, .set []]).cells = [] := by
    rw [ha]; rfl
  have hsel : patchR.SelOK (afterCalls .loop lib realCos [.set [0], .run patchR, .set []]).cells := by
    rw [hc]; exact selOK_nil _
  obtain ⟨m₂, f₂, e₂, -⟩ := cellUpdate_ok (sch := .loop) (by decide) lib realCos
    (f := afterCalls .loop lib realCos [.set [0], .run patchR, .set []]) (patchR_needs _) hsel
  refine ⟨[], [.set [0], .run patchR, .set []], patchR, m₁, m₂, patchR_needs _, hc, congrArg Prod.fst e₁,
    congrArg Prod.fst e₂, ?_, ?_⟩
  · refine (C09_loop_boundary_point (v := 3) (p := 12) (a := 0) (b := 1) (pa := 0) (pb := 4) (patchR_needs _) e₁ rfl
      (by decide) (fun _ => patchR_point3) rfl rfl).trans (congrArg some ?_)
    simp only [smul_eq_mul]
    norm_num
  · rw [cellUpdate_base (by decide) (patchR_needs _) hsel e₂ (v := 3) (by decide)]
    simp only [schemeBase, loopBase, hu, hc]
    rfl

end real
end Verif
