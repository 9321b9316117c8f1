import Verif.Proofs.Hull
import Verif.Proofs.Sqrt3Result
import Verif.Properties.Affine
/-
C20: the output points lie in the convex hull of the input points.
-/
namespace Verif
variable {K P D : Type} [Field K] [LinearOrder K] [IsStrictOrderedRing K] [AddCommGroup P] [Module K P]

section
variable {inp out : Mesh P D} {lib : QELib} {cosn : Nat → K} {f f' : Filt}

/-- C20 for Linear. -/
theorem C20_hull_linear (hv : inp.Valid) (hsel : inp.SelOK f.cells)
    (h : cellUpdate .linear lib cosn f inp = (.ok out, f')) : ∀ v p, out.pos v = some p → p ∈ inp.hull K := by
  have hn : Scheme.linear.Needs inp := ⟨hv, by simp, by simp⟩
  refine mem_of_dense (cellUpdate_result (by decide) hn hsel h).1.points fun p hp => ?_
  rcases List.mem_append.1 hp with hp | hp
  · obtain ⟨v, h1, rfl⟩ := List.mem_map.1 hp
    exact coord_mem_hull hv (List.mem_range.1 h1)
  · obtain ⟨e, h1, rfl⟩ := List.mem_map.1 hp
    have he := selected_isEdge hv h1
    rw [valueOf_eq (np := schemePoint .linear K inp) (linearPoint_ok hv he)]
    exact mid_mem (convex_convexHull K _) (coord_mem_hull hv (hv.isEdge_lt he).1) (coord_mem_hull hv (hv.isEdge_lt he).2)

/-- C20 for SquareThree. -/
theorem C20_hull_sqrt3 (hv : inp.Valid) (hsel : inp.SelOK f.cells)
    (hmax : inp.points.length + (inp.selected f.cells).length ≤ idMax)
    (h : cellUpdate .sqrt3 lib cosn f inp = (.ok out, f')) : ∀ v p, out.pos v = some p → p ∈ inp.hull K := by
  refine mem_of_dense (sqrt3Update_result hv hsel hmax h).points fun p hp => ?_
  rcases List.mem_append.1 hp with hp | hp
  · obtain ⟨v, h1, rfl⟩ := List.mem_map.1 hp
    exact coord_mem_hull hv (List.mem_range.1 h1)
  · obtain ⟨t, h1, rfl⟩ := List.mem_map.1 hp
    have ht : t ∈ inp.tris := by
      unfold Mesh.selected at h1
      split at h1
      · exact h1
      · obtain ⟨k, _, hk⟩ := List.mem_filterMap.1 h1
        unfold Mesh.triAt at hk
        obtain ⟨c, hc, hk⟩ := Option.bind_eq_some_iff.1 hk
        exact List.mem_filterMap.2 ⟨(k, c), AMap.mem_of_find? hc, hk⟩
    exact third_mem (convex_convexHull K _) (coord_mem_hull hv (hv.verts_lt ht (by simp [Tri.verts])))
      (coord_mem_hull hv (hv.verts_lt ht (by simp [Tri.verts]))) (coord_mem_hull hv (hv.verts_lt ht (by simp [Tri.verts])))

/-- C20 for Loop, the part that holds: meshes whose boundary does not touch itself.  `cosn n` stands for `cos(2π/n)`,
of which only `|cosn n| ≤ 1` is used.  Missing: points where several boundary curves meet, see `C20_hull_loop_refuted`. -/
theorem C20_hull_loop_partial (hc : ∀ n, -1 ≤ cosn n ∧ cosn n ≤ 1) (hn : Scheme.loop.Needs inp)
    (hsb : inp.SimpleBoundary) (hsel : inp.SelOK f.cells)
    (h : cellUpdate .loop lib cosn f inp = (.ok out, f')) : ∀ v p, out.pos v = some p → p ∈ inp.hull K := by
  have hv := hn.valid
  have hr := hn.ring (Or.inl rfl)
  refine mem_of_dense (cellUpdate_result (by decide) hn hsel h).1.points fun p hp => ?_
  rcases List.mem_append.1 hp with hp | hp
  · obtain ⟨v, h1, rfl⟩ := List.mem_map.1 hp
    exact loopBase_mem_hull hc hn hsb f (List.mem_range.1 h1)
  · obtain ⟨e, h1, rfl⟩ := List.mem_map.1 hp
    have he := selected_isEdge hv h1
    by_cases hb : e ∈ dartsOf inp.tris ∧ e.sym ∈ dartsOf inp.tris
    · obtain ⟨a, b⟩ := e
      obtain ⟨c, hc⟩ := dartsOf_iff_hasTri.1 hb.1
      obtain ⟨d, hd⟩ := dartsOf_iff_hasTri.1 hb.2
      rw [valueOf_eq (np := schemePoint .loop K inp) (loopPoint_inner hv hr hc hd)]
      exact loop_mem (convex_convexHull K _) (coord_mem_hull hv (hv.isEdge_lt he).1)
        (coord_mem_hull hv (hv.isEdge_lt he).2) (coord_mem_hull hv (hv.isEdge_lt (hv.edge13 hc)).2)
        (coord_mem_hull hv (hv.isEdge_lt (hv.edge13 hd)).2)
    · rw [valueOf_eq (np := schemePoint .loop K inp) (loopPoint_border hv he hb)]
      exact mid_mem (convex_convexHull K _) (coord_mem_hull hv (hv.isEdge_lt he).1)
        (coord_mem_hull hv (hv.isEdge_lt he).2)

end

example (out : Mesh Q3 Nat) (f' : Filt) (h : cellUpdate .linear someLib cos0 (usedFilt [1, 3]) patchMesh = (.ok out, f'))
    (v : PId) (p : Q3) (hp : out.pos v = some p) : p ∈ patchMesh.hull ℚ :=
  C20_hull_linear patchMesh_ok.1 patchMesh_sel h v p hp

example (out : Mesh Q3 Nat) (f' : Filt) (h : cellUpdate .sqrt3 someLib cos0 (usedFilt [1, 3]) patchMesh = (.ok out, f'))
    (v : PId) (p : Q3) (hp : out.pos v = some p) : p ∈ patchMesh.hull ℚ :=
  C20_hull_sqrt3 patchMesh_ok.1 patchMesh_sel (by decide) h v p hp

example (out : Mesh Q3 Nat) (f' : Filt) (h : cellUpdate .loop someLib cos0 Filt.new patchMesh = (.ok out, f'))
    (v : PId) (p : Q3) (hp : out.pos v = some p) : p ∈ patchMesh.hull ℚ :=
  C20_hull_loop_partial (fun _ => by norm_num [cos0]) (patchMesh_needs _) patchMesh_simple (selOK_nil _) h v p hp

/-- the real cosine meets the hypothesis of `C20_hull_loop_partial` -/
example : ∀ n, -1 ≤ realCos n ∧ realCos n ≤ 1 := fun _ => ⟨Real.neg_one_le_cos _, Real.cos_le_one _⟩

section refuted

/-- two triangles that share the point 0 only; all coordinates are at most 8 -/
def bowtieHigh : Mesh ℝ Nat := mk [8, 7, 8, 7, 8] bowtie none

theorem bowtieHigh_ok : bowtieHigh.Valid ∧ bowtieHigh.RingOK ∧ bowtieHigh.NoIsolated ∧ bowtieHigh.tris = bowtie :=
  mk_ok _ (by decide)

/-- C20 is false for Loop: all input points are at most 8, and an output point is above 9. -/
theorem C20_hull_loop_refuted (lib : QELib) (cosn : Nat → ℝ) : ∃ (inp out : Mesh ℝ Nat) (p : ℝ),
    Scheme.loop.Needs inp ∧ (cellUpdate .loop lib cosn Filt.new inp).1 = .ok out ∧ out.pos 0 = some p ∧
    9 < p ∧ (∀ v q, inp.pos v = some q → q ≤ 8) ∧ p ∉ inp.hull ℝ := by
  have hn : Scheme.loop.Needs bowtieHigh :=
    ⟨bowtieHigh_ok.1, fun _ => bowtieHigh_ok.2.1, fun _ => bowtieHigh_ok.2.2.1⟩
  obtain ⟨out, f, h, -⟩ := cellUpdate_ok (by decide) lib cosn (f := Filt.new) hn (selOK_nil _)
  have h0 := bowtie_smoothed hn bowtieHigh_ok.2.2.2 h (by decide)
  have e : ∀ v p, bowtieHigh.pos v = some p → bowtieHigh.coord v = p := fun v p h => Mesh.coord_of_pos h
  rw [e 0 8 rfl, e 1 7 rfl, e 2 8 rfl, e 3 7 rfl, e 4 8 rfl] at h0
  have hle : ∀ v q, bowtieHigh.pos v = some q → q ≤ 8 := by
    intro v q hq
    have hlt := bowtieHigh_ok.1
    unfold Mesh.pos at hq
    have := AMap.mem_of_find? hq
    simp [bowtieHigh, mk, meshOf] at this
    rcases this with h | h | h | h | h <;> (rw [h.2]; try norm_num)
  refine ⟨bowtieHigh, out, _, hn, congrArg Prod.fst h, h0, by norm_num, hle, fun hc => ?_⟩
  have := hull_le (g := LinearMap.id) hle hc
  norm_num at this

end refuted
end Verif
