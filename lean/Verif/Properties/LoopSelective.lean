import Verif.Properties.History
/-
C42: which points a selective run of the Loop cell filter smooths.
-/
namespace Verif
set_option linter.unusedSectionVars false
variable {K P D : Type} [Field K] [Zero P] [Add P] [SMul K P]

section
variable {lib lib₀ : QELib} {cosn : Nat → K} {f f' f₀ : Filt} {inp out out₀ : Mesh P D}

/-- C42 is false: whatever cells a new Loop filter is told to subdivide, it puts *every* original point where a uniform run
of a new filter puts it (`CopyInputMeshToOutputMeshPoints` reads `m_Uniform` before `GenerateOutputPoints` sets it). -/
theorem C42_first_run_smooths_all_refuted (hn : Scheme.loop.Needs inp) {l : List CId} (hsel : inp.SelOK l)
    (h : cellUpdate .loop lib cosn (Filt.new.setCells l) inp = (.ok out, f'))
    (h₀ : cellUpdate .loop lib₀ cosn Filt.new inp = (.ok out₀, f₀)) {v : PId} (hv : v < inp.points.length) :
    out.pos v = out₀.pos v := by
  rw [cellUpdate_base (by decide) hn (f := Filt.new.setCells l) hsel h hv,
    cellUpdate_base (by decide) hn (selOK_nil _) h₀ hv]
  rfl

/-- C42, what holds instead after a selective run (so that the flag `m_Uniform` is false): a point whose id is not the id of
a listed *cell* stays where it is, and a point whose id is the id of a listed cell is put where a uniform run of a new
filter puts it.  Missing: the points smoothed are not those of the listed cells, see `C42_wrong_points_refuted`. -/
theorem C42_later_run_partial (hn : Scheme.loop.Needs inp) (hsel : inp.SelOK f.cells) (hu : f.uniform = false)
    (h : cellUpdate .loop lib cosn f inp = (.ok out, f'))
    (h₀ : cellUpdate .loop lib₀ cosn Filt.new inp = (.ok out₀, f₀)) {v : PId} (hv : v < inp.points.length) :
    (v ∉ f.cells → out.pos v = inp.pos v) ∧ (v ∈ f.cells → out.pos v = out₀.pos v) := by
  rw [cellUpdate_base (by decide) hn hsel h hv]
  constructor
  · intro hc
    rw [hn.valid.pos_eq hv]
    have : f.cells.contains v = false := by
      rw [← Bool.not_eq_true, List.contains_iff_mem]; exact hc
    simp only [schemeBase, loopBase, hu, this, Bool.or_self, Bool.false_eq_true, if_false]
  · intro hc
    rw [cellUpdate_base (by decide) hn (selOK_nil _) h₀ hv]
    have : f.cells.contains v = true := List.contains_iff_mem.2 hc
    simp only [schemeBase, loopBase, this, Filt.new, Bool.or_true, if_true, Bool.true_or]

end

example (out out₀ : Mesh Q3 Nat) (f' f₀ : Filt) (h : cellUpdate .loop someLib cos0 (usedFilt [1, 3]) patchMesh = (.ok out, f'))
    (h₀ : cellUpdate .loop someLib cos0 Filt.new patchMesh = (.ok out₀, f₀)) :
    out.pos 4 = some (4, 4, 1) ∧ out.pos 3 = out₀.pos 3 :=
  ⟨(C42_later_run_partial (patchMesh_needs _) patchMesh_sel rfl h h₀ (v := 4) (by decide)).1 (by simp [usedFilt]),
   (C42_later_run_partial (patchMesh_needs _) patchMesh_sel rfl h h₀ (v := 3) (by decide)).2 (by simp [usedFilt])⟩

/-- A new filter, told to subdivide cell 0 with the points 0, 1, 2: the point 3 moves. -/
theorem C42_first_run_witness_refuted (lib : QELib) : ∃ (inp out : Mesh ℝ Nat) (f' : Filt), Scheme.loop.Needs inp ∧
    inp.SelOK [0] ∧ cellUpdate .loop lib realCos (Filt.new.setCells [0]) inp = (.ok out, f') ∧
    inp.cells.find? 0 = some (some ⟨.polygon, [0, 1, 2]⟩) ∧ inp.pos 3 = some 12 ∧ out.pos 3 = some (19 / 2) := by
  have hsel : patchR.SelOK [0] := by unfold Mesh.SelOK; decide
  obtain ⟨out, f', h, -⟩ := cellUpdate_ok (sch := .loop) (by decide) lib realCos (f := Filt.new.setCells [0])
    (patchR_needs _) hsel
  obtain ⟨m₁, f₁, e₁, -⟩ := cellUpdate_ok (sch := .loop) (by decide) lib realCos (f := Filt.new) (patchR_needs _)
    (selOK_nil _)
  refine ⟨patchR, out, f', patchR_needs _, hsel, h, rfl, rfl, ?_⟩
  rw [C42_first_run_smooths_all_refuted (patchR_needs _) hsel h e₁ (by decide)]
  refine (C09_loop_boundary_point (v := 3) (p := 12) (a := 0) (b := 1) (pa := 0) (pb := 4) (patchR_needs _) e₁ rfl
    (by decide) (fun _ => patchR_point3) rfl rfl).trans (congrArg some ?_)
  simp only [smul_eq_mul]
  norm_num

theorem patchR_point5 {w : PId} : (w = 0 ∨ w = 2) ↔ patchR.IsEdge (5, w) ∧
    ((∀ c, ¬ HasTri patchR.tris 5 w c) ∨ ∀ c, ¬ HasTri patchR.tris w 5 c) := by
  constructor
  · rintro (rfl | rfl)
    · refine ⟨by unfold Mesh.IsEdge; decide, Or.inr fun c hc => ?_⟩
      have := hc.dart
      rw [patchR_ok.2.2.2] at this
      revert this; decide
    · refine ⟨by unfold Mesh.IsEdge; decide, Or.inl fun c hc => ?_⟩
      have := hc.dart
      rw [patchR_ok.2.2.2] at this
      revert this; decide
  · rintro ⟨hw, -⟩
    have := (patchR_ok.1.edges_iff (5, w)).1 hw
    rw [patchR_ok.2.2.2] at this
    rcases this with h1 | h1 <;> simp [dartsOf, patch, Tri.darts, Edge.sym] at h1 <;> simp [h1]

/-- After a selective run, told to subdivide cell 3 with the points 0, 2, 5: the point 3, which is not in the cell, moves,
and the point 5, which is in the cell and which a uniform run moves, does not. -/
theorem C42_wrong_points_refuted (lib : QELib) : ∃ (calls : List (CellCall ℝ Nat)) (inp out out₀ : Mesh ℝ Nat) (f' f₀ : Filt),
    Scheme.loop.Needs inp ∧ (afterCalls .loop lib realCos calls).cells = [3] ∧
    inp.cells.find? 3 = some (some ⟨.polygon, [0, 2, 5]⟩) ∧
    cellUpdate .loop lib realCos (afterCalls .loop lib realCos calls) inp = (.ok out, f') ∧
    cellUpdate .loop lib realCos Filt.new inp = (.ok out₀, f₀) ∧
    inp.pos 3 = some 12 ∧ out.pos 3 = some (19 / 2) ∧
    inp.pos 5 = some 20 ∧ out.pos 5 = some 20 ∧ out₀.pos 5 = some 16 := by
  have ha : afterCalls .loop lib realCos [.set [0], .run patchR, .set [3]] =
      (cellUpdate .loop lib realCos (Filt.new.setCells [0]) patchR).2.setCells [3] := by
    simp only [afterCalls, List.foldl_cons, List.foldl_nil]
  have hflag := C25_loop_flag (lib := lib) (cosn := realCos) (f := Filt.new.setCells [0]) (patchR_needs _)
    (by unfold Mesh.SelOK; decide)
  generalize hg : (cellUpdate .loop lib realCos (Filt.new.setCells [0]) patchR).2 = g at ha hflag
  have hu : (afterCalls .loop lib realCos [.set [0], .run patchR, .set [3]]).uniform = false := by
    rw [ha]; exact hflag
  have hc : (afterCalls .loop lib realCos [.set [0], .run patchR, .set [3]]).cells = [3] := by
    rw [ha]; rfl
  have hsel : patchR.SelOK (afterCalls .loop lib realCos [.set [0], .run patchR, .set [3]]).cells := by
    rw [hc]; unfold Mesh.SelOK; decide
  obtain ⟨out, f', h, -⟩ := cellUpdate_ok (sch := .loop) (by decide) lib realCos
    (f := afterCalls .loop lib realCos [.set [0], .run patchR, .set [3]]) (patchR_needs _) hsel
  obtain ⟨m₁, f₁, e₁, -⟩ := cellUpdate_ok (sch := .loop) (by decide) lib realCos (f := Filt.new) (patchR_needs _)
    (selOK_nil _)
  refine ⟨[.set [0], .run patchR, .set [3]], patchR, out, m₁, f', f₁, patchR_needs _, hc, rfl, h, e₁, rfl, ?_, rfl, ?_, ?_⟩
  · rw [(C42_later_run_partial (patchR_needs _) hsel hu h e₁ (v := 3) (by decide)).2 (by rw [hc]; simp)]
    refine (C09_loop_boundary_point (v := 3) (p := 12) (a := 0) (b := 1) (pa := 0) (pb := 4) (patchR_needs _) e₁ rfl
      (by decide) (fun _ => patchR_point3) rfl rfl).trans (congrArg some ?_)
    simp only [smul_eq_mul]
    norm_num
  · rw [(C42_later_run_partial (patchR_needs _) hsel hu h e₁ (v := 5) (by decide)).1 (by rw [hc]; simp)]
    rfl
  · refine (C09_loop_boundary_point (v := 5) (p := 20) (a := 0) (b := 2) (pa := 0) (pb := 8) (patchR_needs _) e₁ rfl
      (by decide) (fun _ => patchR_point5) rfl rfl).trans (congrArg some ?_)
    simp only [smul_eq_mul]
    norm_num

end Verif
