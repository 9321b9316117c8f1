import Verif.Proofs.Coords
import Verif.Proofs.Keep
import Verif.Properties.Samples
import Mathlib.Analysis.SpecialFunctions.Trigonometric.Basic
import Mathlib.Tactic.NormNum
/-
C06 – C10: where the points of the output are.  Coordinates are vectors of any vector space `P` over a field `K`.
-/
namespace Verif
variable {sch : Scheme} {lib : QELib} {f f' : Filt}

section kept
variable {K P D : Type} [Field K] [Zero P] [Add P] [SMul K P] {cosn : Nat → K} {inp out : Mesh P D}

/-- C06. Whenever a run of the Linear, ModifiedButterfly or SquareThree cell filter returns, the input points are kept.
The mesh need not be valid: all that is asked is that its points are numbered `0 … n-1`. -/
theorem C06_original_points_kept (hs : sch ≠ .loop) (hp : inp.points.map Prod.fst = List.range inp.points.length)
    (h : cellUpdate sch lib cosn f inp = (.ok out, f')) :
    ∀ v p, inp.pos v = some p → out.pos v = some p := by
  have hp' := AMap.eq_dense _ hp
  obtain ⟨new, h1⟩ := cellUpdate_keep hs hp' h
  intro v p hv
  unfold Mesh.pos at *
  rw [hp', AMap.find?_dense] at hv
  rw [h1, AMap.find?_dense, List.getElem?_append_left (List.getElem?_eq_some_iff.1 hv).1]
  exact hv

/-- C06 for the edge filters, all three schemes. -/
theorem C06_original_points_kept_edge {sch : EdgeScheme} (hp : inp.points.map Prod.fst = List.range inp.points.length)
    (h : edgeUpdate sch lib cosn f inp = (.ok out, f')) :
    ∀ v p, inp.pos v = some p → out.pos v = some p := by
  have hp' := AMap.eq_dense _ hp
  obtain ⟨new, h1⟩ := edgeUpdate_keep hp' h
  intro v p hv
  unfold Mesh.pos at *
  rw [hp', AMap.find?_dense] at hv
  rw [h1, AMap.find?_dense, List.getElem?_append_left (List.getElem?_eq_some_iff.1 hv).1]
  exact hv

example (out : Mesh Q3 Nat) (f' : Filt)
    (h : cellUpdate .butterfly someLib cos0 (usedFilt [1, 3]) patchMesh = (.ok out, f')) :
    out.pos 4 = some (4, 4, 1) :=
  C06_original_points_kept (by decide) patchMesh_ok.1.points_dense h 4 _ rfl

example (out : Mesh Q3 Nat) (f' : Filt)
    (h : edgeUpdate .loop someLib cos0 (Filt.new.setEdges [some (0, 1), none]) patchMesh = (.ok out, f')) :
    out.pos 4 = some (4, 4, 1) :=
  C06_original_points_kept_edge patchMesh_ok.1.points_dense h 4 _ rfl

end kept

variable {K P D : Type} [Field K] [AddCommGroup P] [Module K P] {cosn : Nat → K} {inp out : Mesh P D}

/-- C07. The point that the Linear filter inserts on an edge is its midpoint. -/
theorem C07_linear_midpoints (hv : inp.Valid) (hsel : inp.SelOK f.cells)
    (h : cellUpdate .linear lib cosn f inp = (.ok out, f')) {a b m : PId} (hm : inp.edgePoint f.cells (a, b) = some m)
    {pa pb : P} (ha : inp.pos a = some pa) (hb : inp.pos b = some pb) :
    out.pos m = some ((1 / 2 : K) • pa + (1 / 2 : K) • pb) := by
  have hn : Scheme.linear.Needs inp := ⟨hv, by simp, by simp⟩
  obtain ⟨e', p, h1, h2, h3, h4⟩ := cellUpdate_edgeValue (by decide) hn hsel h hm
  have h5 : linearPoint K inp e' = .ok p := h3
  have h6 : linearPoint K inp (a, b) = .ok p := by
    rcases h1 with rfl | rfl
    · exact h5
    · exact (linearPoint_sym hv h2).trans h5
  have h7 : inp.IsEdge (a, b) := by
    rcases h1 with rfl | rfl
    · exact h2
    · exact h2.sym
  rw [linearPoint_ok hv h7] at h6
  rw [h4, ← Except.ok.inj h6]
  simp only [midPoint, Mesh.coord_of_pos ha, Mesh.coord_of_pos hb, smul_add]

example (out : Mesh Q3 Nat) (f' : Filt)
    (h : cellUpdate .linear someLib cos0 (usedFilt [1, 3]) patchMesh = (.ok out, f')) :
    out.pos 6 = some (2, 0, 0) := by
  have := C07_linear_midpoints patchMesh_ok.1 patchMesh_sel h (a := 0) (b := 1) (m := 6) (by decide) rfl rfl
  rw [this]; norm_num

/-- C08. The point that the Loop filter inserts on an edge between two triangles: 3/8 of the end points and 1/8 of the
opposite corners. -/
theorem C08_loop_inner_edge (hn : Scheme.loop.Needs inp) (hsel : inp.SelOK f.cells)
    (h : cellUpdate .loop lib cosn f inp = (.ok out, f')) {a b c d m : PId} (hm : inp.edgePoint f.cells (a, b) = some m)
    (hc : HasTri inp.tris a b c) (hd : HasTri inp.tris b a d)
    {pa pb pc pd : P} (ha : inp.pos a = some pa) (hb : inp.pos b = some pb) (hpc : inp.pos c = some pc)
    (hpd : inp.pos d = some pd) :
    out.pos m = some ((3 / 8 : K) • pa + (3 / 8 : K) • pb + (1 / 8 : K) • pc + (1 / 8 : K) • pd) := by
  have hv := hn.valid
  have hr := hn.ring (Or.inl rfl)
  obtain ⟨e', p, h1, h2, h3, h4⟩ := cellUpdate_edgeValue (by decide) hn hsel h hm
  have h5 : loopPoint K inp e' = .ok p := h3
  have h6 : loopPoint K inp (a, b) = .ok p := by
    rcases h1 with rfl | rfl
    · exact h5
    · exact (loopPoint_sym hv hr h2).trans h5
  rw [loopPoint_inner hv hr hc hd] at h6
  rw [h4, ← Except.ok.inj h6, Mesh.coord_of_pos ha, Mesh.coord_of_pos hb, Mesh.coord_of_pos hpc, Mesh.coord_of_pos hpd, zero_add]

/-- C08, boundary edges: the midpoint. -/
theorem C08_loop_boundary_edge (hn : Scheme.loop.Needs inp) (hsel : inp.SelOK f.cells)
    (h : cellUpdate .loop lib cosn f inp = (.ok out, f')) {a b m : PId} (hm : inp.edgePoint f.cells (a, b) = some m)
    (hbd : (∀ c, ¬ HasTri inp.tris a b c) ∨ ∀ d, ¬ HasTri inp.tris b a d)
    {pa pb : P} (ha : inp.pos a = some pa) (hb : inp.pos b = some pb) :
    out.pos m = some ((1 / 2 : K) • pa + (1 / 2 : K) • pb) := by
  have hv := hn.valid
  have hr := hn.ring (Or.inl rfl)
  obtain ⟨e', p, h1, h2, h3, h4⟩ := cellUpdate_edgeValue (by decide) hn hsel h hm
  have h5 : loopPoint K inp e' = .ok p := h3
  have h6 : loopPoint K inp (a, b) = .ok p := by
    rcases h1 with rfl | rfl
    · exact h5
    · exact (loopPoint_sym hv hr h2).trans h5
  have h7 : inp.IsEdge (a, b) := by
    rcases h1 with rfl | rfl
    · exact h2
    · exact h2.sym
  rw [loopPoint_border hv h7 (by
    rintro ⟨g1, g2⟩
    obtain ⟨c, hc⟩ := dartsOf_iff_hasTri.1 g1
    obtain ⟨d, hd⟩ := dartsOf_iff_hasTri.1 g2
    rcases hbd with hbd | hbd
    · exact hbd c hc
    · exact hbd d hd)] at h6
  rw [h4, ← Except.ok.inj h6]
  simp only [midPoint, Mesh.coord_of_pos ha, Mesh.coord_of_pos hb, smul_add]

example (out : Mesh Q3 Nat) (f' : Filt)
    (h : cellUpdate .loop someLib cos0 (usedFilt [1, 3]) patchMesh = (.ok out, f')) :
    out.pos 6 = some (7 / 4, 0, 0) ∧ out.pos 7 = some (1, -2, 0) := by
  have h1 := C08_loop_inner_edge (patchMesh_needs _) patchMesh_sel h (a := 0) (b := 1) (c := 2) (d := 3) (m := 6)
    (by decide) (by rw [patchMesh_ok.2.2.2]; unfold HasTri; decide) (by rw [patchMesh_ok.2.2.2]; unfold HasTri; decide)
    rfl rfl rfl rfl
  have h2 := C08_loop_boundary_edge (patchMesh_needs _) patchMesh_sel h (a := 0) (b := 3) (m := 7)
    (by decide) (Or.inr (by
      intro d hd
      rw [patchMesh_ok.2.2.2] at hd
      have : (3, 0) ∈ dartsOf patch := hd.dart
      revert this; decide)) rfl rfl
  rw [h1, h2]; norm_num

/-- C10. The eight-point stencil of the ModifiedButterfly filter. -/
theorem C10_butterfly_stencil (hv : inp.Valid) (hr : inp.RingOK) (hsel : inp.SelOK f.cells)
    (h : cellUpdate .butterfly lib cosn f inp = (.ok out, f')) {a b c d w₁ w₂ w₃ w₄ m : PId}
    (hm : inp.edgePoint f.cells (a, b) = some m)
    (hc : HasTri inp.tris a b c) (hd : HasTri inp.tris b a d)
    (h1 : HasTri inp.tris c b w₁) (h2 : HasTri inp.tris a c w₂) (h3 : HasTri inp.tris d a w₃) (h4 : HasTri inp.tris b d w₄)
    {pa pb pc pd q₁ q₂ q₃ q₄ : P} (ha : inp.pos a = some pa) (hb : inp.pos b = some pb) (hpc : inp.pos c = some pc)
    (hpd : inp.pos d = some pd) (hq₁ : inp.pos w₁ = some q₁) (hq₂ : inp.pos w₂ = some q₂) (hq₃ : inp.pos w₃ = some q₃)
    (hq₄ : inp.pos w₄ = some q₄) :
    out.pos m = some ((1 / 2 : K) • (pa + pb) + (1 / 8 : K) • (pc + pd) - (1 / 16 : K) • (q₁ + q₂ + q₃ + q₄)) := by
  have hn : Scheme.butterfly.Needs inp := ⟨hv, fun _ => hr, by simp⟩
  obtain ⟨e', p, g1, g2, g3, g4⟩ := cellUpdate_edgeValue (by decide) hn hsel h hm
  rw [g4, butterflyPoint_stencil hv hr hc hd h1 h2 h3 h4 ha hb hpc hpd hq₁ hq₂ hq₃ hq₄ g1 g3]

example (out : Mesh Q3 Nat) (f' : Filt)
    (h : cellUpdate .butterfly someLib cos0 (usedFilt [2, 0, 2]) tetraMesh = (.ok out, f')) :
    out.pos 6 = some (2, 0, 0) := by
  have h1 := C10_butterfly_stencil tetraMesh_ok.1 tetraMesh_ok.2.1 tetraMesh_sel h (a := 0) (b := 1) (c := 2) (d := 3)
    (w₁ := 3) (w₂ := 3) (w₃ := 2) (w₄ := 2) (m := 6)
    (by decide) (by rw [tetraMesh_ok.2.2.2]; unfold HasTri; decide) (by rw [tetraMesh_ok.2.2.2]; unfold HasTri; decide)
    (by rw [tetraMesh_ok.2.2.2]; unfold HasTri; decide) (by rw [tetraMesh_ok.2.2.2]; unfold HasTri; decide)
    (by rw [tetraMesh_ok.2.2.2]; unfold HasTri; decide) (by rw [tetraMesh_ok.2.2.2]; unfold HasTri; decide)
    rfl rfl rfl rfl rfl rfl rfl rfl
  rw [h1]; norm_num; rfl

section real
variable {P : Type} [AddCommGroup P] [Module ℝ P] {inp out : Mesh P D}

/-- `cos(2π/n)` -/
noncomputable def realCos (n : Nat) : ℝ := Real.cos (2 * Real.pi / n)

/-- C09. After a uniform run of a new Loop filter, a point all of whose `k` edges lie between two triangles has moved to
`(1 - kβ)` times itself plus `β` times the sum of its neighbours. -/
theorem C09_loop_inner_point (hn : Scheme.loop.Needs inp)
    (h : cellUpdate .loop lib realCos Filt.new inp = (.ok out, f'))
    {v : PId} {p : P} (hp : inp.pos v = some p) {N : List PId} (hnd : N.Nodup) (hN : ∀ w, w ∈ N ↔ inp.IsEdge (v, w))
    (hin : ∀ w ∈ N, (∃ c, HasTri inp.tris v w c) ∧ ∃ c, HasTri inp.tris w v c) {q : PId → P}
    (hq : ∀ w ∈ N, inp.pos w = some (q w)) {β : ℝ}
    (hβ : β = (5 / 8 - (3 / 8 + Real.cos (2 * Real.pi / N.length) / 4) ^ 2) / N.length) :
    out.pos v = some ((1 - (N.length : ℝ) * β) • p + β • (N.map q).sum) := by
  have hv := hn.valid
  have hr := hn.ring (Or.inl rfl)
  have hlt : v < inp.points.length := by
    unfold Mesh.pos at hp
    rw [hv.points_eq, AMap.find?_dense] at hp
    simpa using (List.getElem?_eq_some_iff.1 hp).1
  have hne : N ≠ [] := by
    obtain ⟨w, hw⟩ := (hn.noIsolated rfl).edge hv hlt
    exact List.ne_nil_of_mem ((hN w).2 hw)
  rw [cellUpdate_base (by decide) hn (selOK_nil _) h hlt]
  obtain ⟨r, h1, h2⟩ := smoothingPoint_neighbours realCos hv hr hnd hN hne (inp.coord v)
  rw [smoothed_inner realCos hv h1 hN (fun w hw =>
    ⟨dartsOf_iff_hasTri.2 (hin w hw).1, dartsOf_iff_hasTri.2 (hin w hw).2⟩)] at h2
  have hb : loopBeta realCos N.length = β := by
    rw [hβ]; unfold loopBeta realCos; ring
  have hs : (N.map inp.coord).sum = (N.map q).sum := by
    congr 1
    apply List.map_congr_left
    intro w hw
    exact Mesh.coord_of_pos (hq w hw)
  rw [hb, hs] at h2
  simp only [schemeBase, loopBase, Filt.new, Bool.true_or, if_true]
  rw [valueOf_eq (np := fun v => smoothingPoint realCos inp v (inp.coord v)) h2, Mesh.coord_of_pos hp]

/-- C09, boundary points: 3/4 of the point plus 1/8 of each of its two neighbours along the boundary. -/
theorem C09_loop_boundary_point (hn : Scheme.loop.Needs inp)
    (h : cellUpdate .loop lib realCos Filt.new inp = (.ok out, f'))
    {v : PId} {p : P} (hp : inp.pos v = some p) {a b : PId} (hab : a ≠ b)
    (hB : ∀ w, (w = a ∨ w = b) ↔ inp.IsEdge (v, w) ∧ ((∀ c, ¬ HasTri inp.tris v w c) ∨ ∀ c, ¬ HasTri inp.tris w v c))
    {pa pb : P} (ha : inp.pos a = some pa) (hb : inp.pos b = some pb) :
    out.pos v = some ((3 / 4 : ℝ) • p + (1 / 8 : ℝ) • pa + (1 / 8 : ℝ) • pb) := by
  have hv := hn.valid
  have hr := hn.ring (Or.inl rfl)
  have hlt : v < inp.points.length := by
    unfold Mesh.pos at hp
    rw [hv.points_eq, AMap.find?_dense] at hp
    simpa using (List.getElem?_eq_some_iff.1 hp).1
  obtain ⟨w, hw⟩ := (hn.noIsolated rfl).edge hv hlt
  obtain ⟨r, g1, g2, g3⟩ := smoothingPoint_ok realCos hv hr hw (inp.coord v)
  have hN : ∀ w, w ∈ r.map Prod.snd ↔ inp.IsEdge (v, w) := by
    intro w
    rw [List.mem_map]
    constructor
    · rintro ⟨⟨x, y⟩, he, rfl⟩
      obtain ⟨h1, h2⟩ := (g2 _).1 he
      cases h2; exact h1
    · intro hw; exact ⟨(v, w), (g2 _).2 ⟨hw, rfl⟩, rfl⟩
  have hr1 : r = (r.map Prod.snd).map fun w => (v, w) := by
    rw [List.map_map]
    conv_lhs => rw [← List.map_id r]
    apply List.map_congr_left
    rintro ⟨x, y⟩ he
    have := ((g2 _).1 he).2
    simp only at this
    simp [this]
  have hnd : (r.map Prod.snd).Nodup := by
    rw [hr1] at g1
    exact List.Nodup.of_map _ g1
  have hsm := smoothed_border realCos hv (List.Perm.of_eq hr1) hnd hN (B := [a, b]) (by simp) (by simpa using hab) (by
    intro w
    rw [List.mem_cons, List.mem_singleton, hB]
    refine and_congr_right fun _ => ?_
    rw [dartsOf_iff_hasTri, dartsOf_iff_hasTri, not_and_or, not_exists, not_exists]) (inp.coord v)
  rw [hsm] at g3
  rw [cellUpdate_base (by decide) hn (selOK_nil _) h hlt]
  simp only [schemeBase, loopBase, Filt.new, Bool.true_or, if_true]
  rw [valueOf_eq (np := fun v => smoothingPoint realCos inp v (inp.coord v)) g3, Mesh.coord_of_pos hp]
  simp only [List.map_cons, List.map_nil, List.sum_cons, List.sum_nil, add_zero, Mesh.coord_of_pos ha,
    Mesh.coord_of_pos hb, smul_add]
  rw [add_assoc]

/-- the tetrahedron and the patch with real coordinates -/
def tetraR : Mesh ℝ Nat := mk [0, 4, 8, 12] tetra none
def patchR : Mesh ℝ Nat := mk [0, 4, 8, 12, 16, 20] patch none

theorem tetraR_ok : tetraR.Valid ∧ tetraR.RingOK ∧ tetraR.NoIsolated ∧ tetraR.tris = tetra := mk_ok _ (by decide)
theorem patchR_ok : patchR.Valid ∧ patchR.RingOK ∧ patchR.NoIsolated ∧ patchR.tris = patch := mk_ok _ (by decide)

example (out : Mesh ℝ Nat) (f' : Filt) (h : cellUpdate .loop someLib realCos Filt.new tetraR = (.ok out, f')) :
    out.pos 0 = some (9 / 2) := by
  have hN : ∀ w, w ∈ [1, 2, 3] ↔ tetraR.IsEdge (0, w) := by
    intro w
    constructor
    · intro hw
      simp only [List.mem_cons, List.not_mem_nil, or_false] at hw
      rcases hw with rfl | rfl | rfl <;> (unfold Mesh.IsEdge; decide)
    · intro hw
      have := (tetraR_ok.1.edges_iff (0, w)).1 hw
      rw [tetraR_ok.2.2.2] at this
      have h4 : w < 4 := (tetraR_ok.1.isEdge_lt hw).2
      have key : ∀ w < 4, (0, w) ∈ dartsOf tetra ∨ Edge.sym (0, w) ∈ dartsOf tetra → w ∈ [1, 2, 3] := by decide
      exact key w h4 this
  have := C09_loop_inner_point (v := 0) (p := 0) (N := [1, 2, 3]) (q := fun w => 4 * w)
    ⟨tetraR_ok.1, fun _ => tetraR_ok.2.1, fun _ => tetraR_ok.2.2.1⟩ h rfl (by decide) hN (by
      intro w hw
      rw [← dartsOf_iff_hasTri, ← dartsOf_iff_hasTri, tetraR_ok.2.2.2]
      simp only [List.mem_cons, List.not_mem_nil, or_false] at hw
      rcases hw with rfl | rfl | rfl <;> decide) (by
      intro w hw
      simp only [List.mem_cons, List.not_mem_nil, or_false] at hw
      rcases hw with rfl | rfl | rfl <;> (simp [tetraR, mk, Mesh.pos, meshOf]; norm_num [AMap.find?])) rfl
  refine this.trans (congrArg some ?_)
  have hcos : Real.cos (2 * Real.pi / ([1, 2, 3] : List PId).length) = -1 / 2 := by
    have : 2 * Real.pi / (([1, 2, 3] : List PId).length : ℝ) = 2 * (Real.pi / 3) := by
      simp only [List.length_cons, List.length_nil]; push_cast; ring
    rw [this, Real.cos_two_mul, Real.cos_pi_div_three]; norm_num
  rw [hcos]
  simp only [smul_eq_mul, mul_zero, zero_add, List.map_cons, List.map_nil, List.sum_cons, List.sum_nil, List.length_cons,
    List.length_nil]
  norm_num

example (out : Mesh ℝ Nat) (f' : Filt) (h : cellUpdate .loop someLib realCos Filt.new patchR = (.ok out, f')) :
    out.pos 3 = some (19 / 2) := by
  have := C09_loop_boundary_point (v := 3) (p := 12) (a := 0) (b := 1) (pa := 0) (pb := 4)
    ⟨patchR_ok.1, fun _ => patchR_ok.2.1, fun _ => patchR_ok.2.2.1⟩ h rfl (by decide) (by
      intro w
      constructor
      · rintro (rfl | rfl)
        · refine ⟨by unfold Mesh.IsEdge; decide, Or.inl fun c hc => ?_⟩
          have := hc.dart
          rw [patchR_ok.2.2.2] at this
          revert this; decide
        · refine ⟨by unfold Mesh.IsEdge; decide, Or.inr fun c hc => ?_⟩
          have := hc.dart
          rw [patchR_ok.2.2.2] at this
          revert this; decide
      · rintro ⟨hw, -⟩
        have := (patchR_ok.1.edges_iff (3, w)).1 hw
        rw [patchR_ok.2.2.2] at this
        rcases this with h1 | h1 <;> simp [dartsOf, patch, Tri.darts, Edge.sym] at h1 <;> simp [h1]) rfl rfl
  refine this.trans (congrArg some ?_)
  simp only [smul_eq_mul]
  norm_num

end real
end Verif
