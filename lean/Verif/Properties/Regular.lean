import Verif.Proofs.Regular
import Verif.Properties.Points
import Verif.Properties.Edge
/-
C62: on the regular parts of a mesh ModifiedButterfly reproduces cubic surfaces and Loop quadratic ones up to a shift.
-/
namespace Verif
set_option linter.unusedSectionVars false

section field
variable {K P D : Type} [Field K] [CharZero K] [AddCommGroup P] [Module K P]
variable {lib : QELib} {cosn : Nat → K} {f f' : Filt} {inp out : Mesh P D}

theorem Chart.wings {T : List Tri} {lam : PId → K × K} (hl : Chart T lam) {a b c d w₁ w₂ w₃ w₄ : PId}
    (hc : HasTri T a b c) (hd : HasTri T b a d) (h1 : HasTri T c b w₁) (h2 : HasTri T a c w₂) (h3 : HasTri T d a w₃)
    (h4 : HasTri T b d w₄) :
    lam d = lam a + lam b - lam c ∧ lam w₁ = lam c + lam b - lam a ∧ lam w₂ = lam a + lam c - lam b ∧
      lam w₃ = lam a + lam a - lam c ∧ lam w₄ = lam b + lam b - lam c := by
  have e0 := hl a b c d hc hd
  have e1 := hl c b w₁ a h1 hc.rot
  have e2 := hl a c w₂ b h2 hc.rot.rot
  have e3 := hl d a w₃ b h3 hd.rot
  have e4 := hl b d w₄ a h4 hd.rot.rot
  have f0 : lam d = lam a + lam b - lam c := by rw [← e0]; abel
  refine ⟨f0, ?_, ?_, ?_, ?_⟩
  · rw [← e1]; abel
  · rw [← e2]; abel
  · rw [eq_sub_of_add_eq e3, f0]; abel
  · rw [eq_sub_of_add_eq e4, f0]; abel

/-- C62. Let the points of the mesh lie on a cubic surface over parameters in which the triangles form parallelograms.  Then the
point that ModifiedButterfly inserts on an edge lies on the surface too, over the middle of the edge, if the triangles of the
stencil exist. -/
theorem C62_butterfly_cubic (hv : inp.Valid) (hr : inp.RingOK) (hsel : inp.SelOK f.cells)
    (h : cellUpdate .butterfly lib cosn f inp = (.ok out, f')) {lam : PId → K × K} (hl : Chart inp.tris lam)
    {φ : Nat → Nat → P} {a b c d w₁ w₂ w₃ w₄ m : PId} (hm : inp.edgePoint f.cells (a, b) = some m)
    (hp : ∀ v ∈ [a, b, c, d, w₁, w₂, w₃, w₄], inp.pos v = some (polyMap 3 φ (lam v)))
    (hc : HasTri inp.tris a b c) (hd : HasTri inp.tris b a d)
    (h1 : HasTri inp.tris c b w₁) (h2 : HasTri inp.tris a c w₂) (h3 : HasTri inp.tris d a w₃) (h4 : HasTri inp.tris b d w₄) :
    out.pos m = some (polyMap 3 φ ((1 / 2 : K) • (lam a + lam b))) := by
  rw [C10_butterfly_stencil hv hr hsel h hm hc hd h1 h2 h3 h4 (hp a (by simp)) (hp b (by simp)) (hp c (by simp)) (hp d (by simp))
    (hp w₁ (by simp)) (hp w₂ (by simp)) (hp w₃ (by simp)) (hp w₄ (by simp))]
  obtain ⟨e0, e1, e2, e3, e4⟩ := hl.wings hc hd h1 h2 h3 h4
  rw [e0, e1, e2, e3, e4, butterfly_cubic]

/-- C62 for the ModifiedButterfly edge filter. -/
theorem C62_butterfly_cubic_edge (hv : inp.Valid) (hr : inp.RingOK) (hsel : inp.EdgeSelOK f.edgeSel)
    (h : edgeUpdate .butterfly lib cosn f inp = (.ok out, f')) {lam : PId → K × K} (hl : Chart inp.tris lam)
    {φ : Nat → Nat → P} {a b c d w₁ w₂ w₃ w₄ m : PId} (hm : inp.listPoint f.edgeSel (a, b) = some m)
    (hp : ∀ v ∈ [a, b, c, d, w₁, w₂, w₃, w₄], inp.pos v = some (polyMap 3 φ (lam v)))
    (hc : HasTri inp.tris a b c) (hd : HasTri inp.tris b a d)
    (h1 : HasTri inp.tris c b w₁) (h2 : HasTri inp.tris a c w₂) (h3 : HasTri inp.tris d a w₃) (h4 : HasTri inp.tris b d w₄) :
    out.pos m = some (polyMap 3 φ ((1 / 2 : K) • (lam a + lam b))) := by
  rw [C40_butterfly_edge_stencil hv hr hsel h hm hc hd h1 h2 h3 h4 (hp a (by simp)) (hp b (by simp)) (hp c (by simp))
    (hp d (by simp)) (hp w₁ (by simp)) (hp w₂ (by simp)) (hp w₃ (by simp)) (hp w₄ (by simp))]
  obtain ⟨e0, e1, e2, e3, e4⟩ := hl.wings hc hd h1 h2 h3 h4
  rw [e0, e1, e2, e3, e4, butterfly_cubic]

/-- C62 for Loop: if the points lie on a quadratic surface, the point on an edge between two triangles lies over the middle of
the edge, beside the surface by a vector that depends only on the sides of the triangles in the parameters. -/
theorem C62_loop_quadratic_edge (hn : Scheme.loop.Needs inp) (hsel : inp.SelOK f.cells)
    (h : cellUpdate .loop lib cosn f inp = (.ok out, f')) {lam : PId → K × K} (hl : Chart inp.tris lam)
    {φ : Nat → Nat → P} {a b c d m : PId} (hm : inp.edgePoint f.cells (a, b) = some m)
    (hp : ∀ v ∈ [a, b, c, d], inp.pos v = some (polyMap 2 φ (lam v)))
    (hc : HasTri inp.tris a b c) (hd : HasTri inp.tris b a d) :
    out.pos m = some (polyMap 2 φ ((1 / 2 : K) • (lam a + lam b)) + sideQuad φ (lam a) (lam b) (lam c)) := by
  rw [C08_loop_inner_edge hn hsel h hm hc hd (hp a (by simp)) (hp b (by simp)) (hp c (by simp)) (hp d (by simp))]
  have e0 : lam d = lam a + lam b - lam c := by rw [← hl a b c d hc hd]; abel
  rw [e0, loop_edge_quad]

/-- The vector beside the surface is the same for two triangles with a common edge, and so on each piece of a mesh. -/
theorem Chart.one_shift {T : List Tri} {lam : PId → K × K} (hl : Chart T lam) (φ : Nat → Nat → P) {x y z w : PId}
    (h : HasTri T x y z) (h' : HasTri T y x w) :
    sideQuad φ (lam x) (lam y) (lam z) = sideQuad φ (lam y) (lam x) (lam w) ∧
      sideQuad φ (lam x) (lam y) (lam z) = sideQuad φ (lam y) (lam z) (lam x) := by
  refine ⟨sideQuad_eq φ (hl x y z w h h'), ?_⟩
  unfold sideQuad
  rw [add_assoc, add_comm]

end field

section real
variable {P D : Type} [AddCommGroup P] [Module ℝ P] {lib : QELib} {f' : Filt} {inp out : Mesh P D}

/-- C62 for the points that Loop moves: a point with six triangles around it moves off the quadratic surface by the same vector
as the points that are inserted beside it. -/
theorem C62_loop_quadratic_point (hn : Scheme.loop.Needs inp) (h : cellUpdate .loop lib realCos Filt.new inp = (.ok out, f'))
    {lam : PId → ℝ × ℝ} (hl : Chart inp.tris lam) {φ : Nat → Nat → P} {v n₀ n₁ n₂ n₃ n₄ n₅ : PId}
    (hp : ∀ w ∈ [v, n₀, n₁, n₂, n₃, n₄, n₅], inp.pos w = some (polyMap 2 φ (lam w)))
    (hnd : [n₀, n₁, n₂, n₃, n₄, n₅].Nodup)
    (h0 : HasTri inp.tris v n₀ n₁) (h1 : HasTri inp.tris v n₁ n₂) (h2 : HasTri inp.tris v n₂ n₃)
    (h3 : HasTri inp.tris v n₃ n₄) (h4 : HasTri inp.tris v n₄ n₅) (h5 : HasTri inp.tris v n₅ n₀) :
    out.pos v = some (polyMap 2 φ (lam v) + sideQuad φ (lam v) (lam n₀) (lam n₁)) := by
  have hv := hn.valid
  have hall := hv.good.fans v (fun x y => (x = n₀ ∧ y = n₁) ∨ (x = n₁ ∧ y = n₂) ∨ (x = n₂ ∧ y = n₃) ∨ (x = n₃ ∧ y = n₄) ∨
    (x = n₄ ∧ y = n₅) ∨ (x = n₅ ∧ y = n₀)) (by
      rintro x y (⟨rfl, rfl⟩ | ⟨rfl, rfl⟩ | ⟨rfl, rfl⟩ | ⟨rfl, rfl⟩ | ⟨rfl, rfl⟩ | ⟨rfl, rfl⟩) <;> assumption)
    ⟨n₀, n₁, by simp⟩ (by
      rintro x y (⟨rfl, rfl⟩ | ⟨rfl, rfl⟩ | ⟨rfl, rfl⟩ | ⟨rfl, rfl⟩ | ⟨rfl, rfl⟩ | ⟨rfl, rfl⟩)
      · exact ⟨⟨n₅, by simp⟩, n₂, by simp⟩
      · exact ⟨⟨n₀, by simp⟩, n₃, by simp⟩
      · exact ⟨⟨n₁, by simp⟩, n₄, by simp⟩
      · exact ⟨⟨n₂, by simp⟩, n₅, by simp⟩
      · exact ⟨⟨n₃, by simp⟩, n₀, by simp⟩
      · exact ⟨⟨n₄, by simp⟩, n₁, by simp⟩)
  have hin : ∀ w ∈ [n₀, n₁, n₂, n₃, n₄, n₅], (∃ c, HasTri inp.tris v w c) ∧ ∃ c, HasTri inp.tris w v c := by
    intro w hw
    simp only [List.mem_cons, List.not_mem_nil, or_false] at hw
    rcases hw with rfl | rfl | rfl | rfl | rfl | rfl
    · exact ⟨⟨_, h0⟩, _, h5.rot.rot⟩
    · exact ⟨⟨_, h1⟩, _, h0.rot.rot⟩
    · exact ⟨⟨_, h2⟩, _, h1.rot.rot⟩
    · exact ⟨⟨_, h3⟩, _, h2.rot.rot⟩
    · exact ⟨⟨_, h4⟩, _, h3.rot.rot⟩
    · exact ⟨⟨_, h5⟩, _, h4.rot.rot⟩
  have hN : ∀ w, w ∈ [n₀, n₁, n₂, n₃, n₄, n₅] ↔ inp.IsEdge (v, w) := by
    intro w
    constructor
    · intro hw
      exact (hv.edges_iff _).2 (Or.inl (dartsOf_iff_hasTri.2 (hin w hw).1))
    · intro hw
      rcases (hv.edges_iff _).1 hw with hd | hd
      · obtain ⟨c, hc⟩ := dartsOf_iff_hasTri.1 hd
        rcases hall _ _ hc with h | h | h | h | h | h <;> simp [h.1]
      · obtain ⟨c, hc⟩ := dartsOf_iff_hasTri.1 hd
        rcases hall _ _ hc.rot with h | h | h | h | h | h <;> simp [show w = _ from h.2]
  have hβ : (1 / 16 : ℝ) = (5 / 8 - (3 / 8 + Real.cos (2 * Real.pi / ([n₀, n₁, n₂, n₃, n₄, n₅] : List PId).length) / 4) ^ 2) /
      ([n₀, n₁, n₂, n₃, n₄, n₅] : List PId).length := by
    have : 2 * Real.pi / (([n₀, n₁, n₂, n₃, n₄, n₅] : List PId).length : ℝ) = Real.pi / 3 := by
      simp only [List.length_cons, List.length_nil]; push_cast; ring
    rw [this, Real.cos_pi_div_three]
    simp only [List.length_cons, List.length_nil]; norm_num
  rw [C09_loop_inner_point hn h (hp v (by simp)) hnd hN hin (q := fun w => polyMap 2 φ (lam w))
    (fun w hw => hp w (List.mem_cons_of_mem _ hw)) hβ]
  have e2 : lam n₂ = lam v + lam n₁ - lam n₀ := by rw [← hl v n₁ n₂ n₀ h1 h0.rot.rot]; abel
  have e3 : lam n₃ = lam v + lam v - lam n₀ := by
    rw [eq_sub_of_add_eq (hl v n₂ n₃ n₁ h2 h1.rot.rot), e2]; abel
  have e4 : lam n₄ = lam v + lam v - lam n₁ := by
    rw [eq_sub_of_add_eq (hl v n₃ n₄ n₂ h3 h2.rot.rot), e3, e2]; abel
  have e5 : lam n₅ = lam v + lam n₀ - lam n₁ := by
    rw [eq_sub_of_add_eq (hl v n₄ n₅ n₃ h4 h3.rot.rot), e4, e3]; abel
  rw [← loop_point_quad, ← e2, ← e3, ← e4, ← e5]
  simp only [List.map_cons, List.map_nil, List.sum_cons, List.sum_nil, List.length_cons, List.length_nil, add_zero]
  refine congrArg some ?_
  congr 1
  · congr 1; norm_num
  · congr 1; abel

end real

/-- a grid of four by four points with diagonals -/
def grid : List Tri := [0, 1, 2, 4, 5, 6, 8, 9, 10].flatMap fun p => [(p, p + 4, p + 5), (p, p + 5, p + 1)]

/-- its parameters -/
def gridLam (K : Type) [Field K] (v : PId) : K × K := (((v / 4 : Nat) : K), ((v % 4 : Nat) : K))

theorem grid_chart {K : Type} [Field K] : Chart grid (gridLam K) := by
  have key : ∀ t ∈ grid.flatMap fun t => [t, (t.2.1, t.2.2, t.1), (t.2.2, t.1, t.2.1)],
      ∀ s ∈ grid.flatMap fun t => [t, (t.2.1, t.2.2, t.1), (t.2.2, t.1, t.2.1)], s.1 = t.2.1 → s.2.1 = t.1 →
      t.2.2 / 4 + s.2.2 / 4 = t.1 / 4 + t.2.1 / 4 ∧ t.2.2 % 4 + s.2.2 % 4 = t.1 % 4 + t.2.1 % 4 := by decide +kernel
  have mem : ∀ x y z, HasTri grid x y z → (x, y, z) ∈ grid.flatMap fun t => [t, (t.2.1, t.2.2, t.1), (t.2.2, t.1, t.2.1)] := by
    intro x y z h
    rw [List.mem_flatMap]
    rcases h with h | h | h
    · exact ⟨_, h, by simp⟩
    · exact ⟨_, h, by simp⟩
    · exact ⟨_, h, by simp⟩
  intro x y z w h h'
  obtain ⟨h1, h2⟩ := key _ (mem _ _ _ h) _ (mem _ _ _ h') rfl rfl
  refine Prod.ext ?_ ?_
  · have := congrArg (Nat.cast (R := K)) h1
    rw [Nat.cast_add, Nat.cast_add] at this
    exact this
  · have := congrArg (Nat.cast (R := K)) h2
    rw [Nat.cast_add, Nat.cast_add] at this
    exact this

/-- the grid on the surface `x³ - x y² + 2 y` -/
def cubicGrid : Mesh ℚ Nat := mk ((List.range 16).map fun v => ((v / 4 : Nat) : ℚ) ^ 3 - ((v / 4 : Nat) : ℚ) * ((v % 4 : Nat) : ℚ) ^ 2 +
  2 * ((v % 4 : Nat) : ℚ)) grid none

theorem cubicGrid_ok : cubicGrid.Valid ∧ cubicGrid.RingOK ∧ cubicGrid.NoIsolated ∧ cubicGrid.tris = grid :=
  mk_ok _ (by decide +kernel)

def cubicCoeff (i j : Nat) : ℚ := if i = 3 ∧ j = 0 then 1 else if i = 1 ∧ j = 2 then -1 else if i = 0 ∧ j = 1 then 2 else 0

example (out : Mesh ℚ Nat) (f' : Filt) (h : cellUpdate .butterfly someLib cos0 (usedFilt [8, 2]) cubicGrid = (.ok out, f')) :
    out.pos 18 = some (3 / 2 - 0 + 3 - 3 / 2) := by
  have := C62_butterfly_cubic cubicGrid_ok.1 cubicGrid_ok.2.1 (by unfold Mesh.SelOK; decide +kernel) h (lam := gridLam ℚ)
    (by rw [cubicGrid_ok.2.2.2]; exact grid_chart) (φ := cubicCoeff) (a := 5) (b := 10) (c := 6) (d := 9) (w₁ := 11) (w₂ := 1)
    (w₃ := 4) (w₄ := 14) (m := 18) (by decide +kernel) (by decide +kernel) (by rw [cubicGrid_ok.2.2.2]; unfold HasTri; decide)
    (by rw [cubicGrid_ok.2.2.2]; unfold HasTri; decide) (by rw [cubicGrid_ok.2.2.2]; unfold HasTri; decide)
    (by rw [cubicGrid_ok.2.2.2]; unfold HasTri; decide) (by rw [cubicGrid_ok.2.2.2]; unfold HasTri; decide)
    (by rw [cubicGrid_ok.2.2.2]; unfold HasTri; decide)
  rw [this, polyMap3_eq]
  norm_num [gridLam, cubicCoeff]

example (out : Mesh ℚ Nat) (f' : Filt)
    (h : edgeUpdate .butterfly someLib cos0 (Filt.new.setEdges [some (10, 5)]) cubicGrid = (.ok out, f')) :
    out.pos 16 = some 3 := by
  have := C62_butterfly_cubic_edge cubicGrid_ok.1 cubicGrid_ok.2.1 (by
      intro e he
      simp only [Filt.setEdges, List.mem_cons, Option.some.injEq, List.not_mem_nil, or_false] at he
      subst he
      unfold Mesh.IsEdge; decide +kernel) h (lam := gridLam ℚ)
    (by rw [cubicGrid_ok.2.2.2]; exact grid_chart) (φ := cubicCoeff) (a := 5) (b := 10) (c := 6) (d := 9) (w₁ := 11) (w₂ := 1)
    (w₃ := 4) (w₄ := 14) (m := 16) (by decide +kernel) (by decide +kernel) (by rw [cubicGrid_ok.2.2.2]; unfold HasTri; decide)
    (by rw [cubicGrid_ok.2.2.2]; unfold HasTri; decide) (by rw [cubicGrid_ok.2.2.2]; unfold HasTri; decide)
    (by rw [cubicGrid_ok.2.2.2]; unfold HasTri; decide) (by rw [cubicGrid_ok.2.2.2]; unfold HasTri; decide)
    (by rw [cubicGrid_ok.2.2.2]; unfold HasTri; decide)
  rw [this, polyMap3_eq]
  norm_num [gridLam, cubicCoeff]

/-- the grid on the paraboloid `x² + y²` -/
noncomputable def quadGrid : Mesh ℝ Nat := mk ((List.range 16).map fun v => ((v / 4 : Nat) : ℝ) ^ 2 + ((v % 4 : Nat) : ℝ) ^ 2) grid none

theorem quadGrid_ok : quadGrid.Valid ∧ quadGrid.RingOK ∧ quadGrid.NoIsolated ∧ quadGrid.tris = grid :=
  mk_ok _ (by rw [List.length_map]; decide +kernel)

def quadCoeff (i j : Nat) : ℝ := if (i = 2 ∧ j = 0) ∨ (i = 0 ∧ j = 2) then 1 else 0

theorem quadGrid_pos {v : PId} (hv : v ∈ List.range 16) : quadGrid.pos v = some (polyMap 2 quadCoeff (gridLam ℝ v)) := by
  rw [polyMap2_eq]
  have : v < 16 := by simpa using hv
  unfold Mesh.pos
  rw [quadGrid_ok.1.points_eq, AMap.find?_dense]
  simp [quadGrid, mk, meshOf, gridLam, quadCoeff, this]
  exact add_comm _ _

example (out : Mesh ℝ Nat) (f' : Filt) (h : cellUpdate .loop someLib realCos Filt.new quadGrid = (.ok out, f')) :
    out.pos 5 = some (2 + 1 / 2) := by
  have := C62_loop_quadratic_point ⟨quadGrid_ok.1, fun _ => quadGrid_ok.2.1, fun _ => quadGrid_ok.2.2.1⟩ h (lam := gridLam ℝ)
    (by rw [quadGrid_ok.2.2.2]; exact grid_chart) (φ := quadCoeff) (v := 5) (n₀ := 9) (n₁ := 10) (n₂ := 6) (n₃ := 1) (n₄ := 0)
    (n₅ := 4) (fun w hw => quadGrid_pos (by revert hw; revert w; decide)) (by decide)
    (by rw [quadGrid_ok.2.2.2]; unfold HasTri; decide) (by rw [quadGrid_ok.2.2.2]; unfold HasTri; decide)
    (by rw [quadGrid_ok.2.2.2]; unfold HasTri; decide) (by rw [quadGrid_ok.2.2.2]; unfold HasTri; decide)
    (by rw [quadGrid_ok.2.2.2]; unfold HasTri; decide) (by rw [quadGrid_ok.2.2.2]; unfold HasTri; decide)
  rw [this, polyMap2_eq]
  norm_num [gridLam, quadCoeff, sideQuad, quadPart]

example (f : Filt) (hf : f.cells = [8, 2]) (out : Mesh ℝ Nat) (f' : Filt)
    (h : cellUpdate .loop someLib realCos f quadGrid = (.ok out, f')) : out.pos 18 = some (9 / 2 + 1 / 2) := by
  have := C62_loop_quadratic_edge ⟨quadGrid_ok.1, fun _ => quadGrid_ok.2.1, fun _ => quadGrid_ok.2.2.1⟩
    (by rw [hf]; unfold Mesh.SelOK; decide +kernel) h (lam := gridLam ℝ)
    (by rw [quadGrid_ok.2.2.2]; exact grid_chart) (φ := quadCoeff) (a := 5) (b := 10) (c := 6) (d := 9) (m := 18)
    (by rw [hf]; decide +kernel) (fun w hw => quadGrid_pos (by revert hw; revert w; decide))
    (by rw [quadGrid_ok.2.2.2]; unfold HasTri; decide) (by rw [quadGrid_ok.2.2.2]; unfold HasTri; decide)
  rw [this, polyMap2_eq]
  norm_num [gridLam, quadCoeff, sideQuad, quadPart]

end Verif
