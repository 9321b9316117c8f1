import Verif.Proofs.Similar
import Verif.Proofs.Grid
import Verif.Properties.Geometry
/-
C50: uniform Linear subdivision makes scaled copies of the input triangles.
-/
namespace Verif
variable {K P D : Type} [Field K] [AddCommGroup P] [Module K P] {lib : QELib} {cosn : Nat → K} {inp out : Mesh P D}

/-- C50. `n` uniform levels of the Linear filter: the output triangles are the input triangles cut at the midpoints of their
sides `n` times over, in this order. -/
theorem C50_linear_quarters (lib : QELib) (cosn : Nat → K) {f : Iter} (hf : f.cells = []) (hv : inp.Valid) :
    ∃ T out, inp.At T ∧ (iterUpdate .linear lib cosn f inp).1 = .ok out ∧ out.At (quarters K (max 1 f.levels) T) := by
  obtain ⟨T, hT⟩ := hv.at_places
  obtain ⟨out, h, -, h2⟩ := linear_levels lib cosn (max 1 f.levels) hv hT
  refine ⟨T, out, hT, ?_, h2⟩
  rw [iterUpdate_eq, hf, ← levelsOf_eq, h]
  rfl

/-- C50. Each output triangle is an input triangle scaled by `2⁻ⁿ` (turned by half a turn or not) and moved: angles, sense and
proportions are those of the input, whatever the number of levels. -/
theorem C50_linear_shapes [CharZero K] {f : Iter} (hf : f.cells = []) (hv : inp.Valid)
    (h : (iterUpdate .linear lib cosn f inp).1 = .ok out) {T T' : List (P × P × P)} (hT : inp.At T) (hT' : out.At T') :
    ∀ x ∈ T', ∃ t ∈ T, ∃ s : K, (s = (1 / 2) ^ max 1 f.levels ∨ s = -(1 / 2) ^ max 1 f.levels) ∧ ScaledCopy s t x := by
  obtain ⟨T₁, out₁, e1, e2, e3⟩ := C50_linear_quarters lib cosn hf hv
  obtain rfl := e1.unique hT
  obtain rfl := Except.ok.inj (h.symm.trans e2)
  obtain rfl := e3.unique hT'
  exact fun x hx => quarters_copy hx

/-- C50. After `n` uniform levels of the Linear filter each input triangle is covered by its regular grid with `2ⁿ` cells to
a side: the output triangles are exactly the cells of these grids, each of them once. -/
theorem C50_linear_grid [CharZero K] {f : Iter} (hf : f.cells = []) (hv : inp.Valid)
    (h : (iterUpdate .linear lib cosn f inp).1 = .ok out) {T T' : List (P × P × P)} (hT : inp.At T) (hT' : out.At T') :
    (T'.map turned).Perm ((T.flatMap (gridOn K (2 ^ max 1 f.levels))).map turned) := by
  obtain ⟨T₁, out₁, e1, e2, e3⟩ := C50_linear_quarters lib cosn hf hv
  obtain rfl := e1.unique hT
  obtain rfl := Except.ok.inj (h.symm.trans e2)
  obtain rfl := e3.unique hT'
  exact quarters_grid _ _

/-- the middle cell of the first triangle of the tetrahedron after three levels, `N = 8` -/
example : ∃ out T', (iterUpdate .linear someLib cos0 ((Iter.new).setLevels 3) tetraMesh).1 = .ok out ∧ out.At T' ∧
    turned ((gridTri ℚ 8 ((0, 0, 0), (4, 0, 0), (0, 4, 0)) (false, 2, 2) : Q3 × Q3 × Q3)) ∈ T'.map turned := by
  obtain ⟨T, out, h1, h2, h3⟩ := C50_linear_quarters (f := Iter.new.setLevels 3) someLib cos0 rfl tetraMesh_ok.1
  refine ⟨out, _, h2, h3, ?_⟩
  refine ((C50_linear_grid rfl tetraMesh_ok.1 h2 h1 h3).mem_iff).2 (List.mem_map.2 ⟨_, ?_, rfl⟩)
  have hT : (((0, 0, 0), (4, 0, 0), (0, 4, 0)) : Q3 × Q3 × Q3) ∈ T := by
    have hm : (some ((0, 0, 0) : Q3), some ((4, 0, 0) : Q3), some ((0, 4, 0) : Q3)) ∈ tetraMesh.coordTris := by decide +kernel
    rw [h1] at hm
    obtain ⟨t, ht, he⟩ := List.mem_map.1 hm
    obtain ⟨a, b, c⟩ := t
    simp only [Prod.mk.injEq, Option.some.injEq] at he
    obtain ⟨rfl, rfl, rfl⟩ := he
    exact ht
  exact List.mem_flatMap.2 ⟨_, hT, List.mem_map.2 ⟨(false, 2, 2), by decide, rfl⟩⟩

/-- C50. If no side of an input triangle is longer than `L`, no side of an output triangle is longer than `L / 2ⁿ`. -/
theorem C50_linear_mesh_size {E : Type} [NormedAddCommGroup E] [InnerProductSpace ℝ E] {cosn : Nat → ℝ} {inp out : Mesh E D}
    {f : Iter} (hf : f.cells = []) (hv : inp.Valid) (h : (iterUpdate .linear lib cosn f inp).1 = .ok out) {L : ℝ}
    (hL : ∀ t ∈ inp.tris, ∀ e ∈ t.darts, dist (inp.place e.1) (inp.place e.2) ≤ L) :
    ∀ t ∈ out.tris, ∀ e ∈ t.darts, dist (out.place e.1) (out.place e.2) ≤ L / 2 ^ max 1 f.levels := by
  obtain ⟨T, hT⟩ := hv.at_places
  obtain ⟨T₁, out₁, e1, e2, e3⟩ := C50_linear_quarters lib cosn hf hv
  obtain rfl := Except.ok.inj (h.symm.trans e2)
  have key := C50_linear_shapes hf hv h e1 e3
  have at_tri : ∀ {m : Mesh E D} {T : List (E × E × E)}, m.At T → (∀ t ∈ m.tris, (m.place t.1, m.place t.2.1, m.place t.2.2) ∈ T) ∧
      ∀ x ∈ T, ∃ t ∈ m.tris, x = (m.place t.1, m.place t.2.1, m.place t.2.2) := by
    intro m T hm
    have e : T = m.tris.map fun t => (m.place t.1, m.place t.2.1, m.place t.2.2) := by
      have := congrArg (List.map fun x : Option E × Option E × Option E => (x.1.getD 0, x.2.1.getD 0, x.2.2.getD 0)) hm
      simpa [Mesh.coordTris, Function.comp_def, Mesh.place] using this.symm
    rw [e]
    exact ⟨fun t ht => List.mem_map.2 ⟨t, ht, rfl⟩, fun x hx => by obtain ⟨t, ht, rfl⟩ := List.mem_map.1 hx; exact ⟨t, ht, rfl⟩⟩
  intro d hd
  obtain ⟨x, hx, s, hs, hc⟩ := key _ ((at_tri e3).1 d hd)
  obtain ⟨t, ht, rfl⟩ := (at_tri e1).2 x hx
  have habs : |s| = 1 / 2 ^ max 1 f.levels := by
    rcases hs with rfl | rfl <;> simp [abs_of_pos]
  have hab : ∀ (v p q : E), dist p q ≤ L → dist (v + s • p) (v + s • q) ≤ L / 2 ^ max 1 f.levels := by
    intro v p q hpq
    rw [dist_add_left, dist_smul₀, Real.norm_eq_abs, habs, div_mul_eq_mul_div, one_mul]
    gcongr
  have l0 := hL t ht (t.1, t.2.1) (by simp [Tri.darts])
  have l1 := hL t ht (t.2.1, t.2.2) (by simp [Tri.darts])
  have l2 := hL t ht (t.2.2, t.1) (by simp [Tri.darts])
  intro e he
  obtain ⟨v, hc⟩ := hc
  simp only [Prod.mk.injEq] at hc
  simp only [Tri.darts, List.mem_cons, List.not_mem_nil, or_false] at he
  rcases hc with ⟨h1, h2, h3⟩ | ⟨h1, h2, h3⟩ | ⟨h1, h2, h3⟩ <;> rcases he with rfl | rfl | rfl <;> simp only [h1, h2, h3] <;>
    first | exact hab _ _ _ l0 | exact hab _ _ _ l1 | exact hab _ _ _ l2

example : ∃ out, (iterUpdate .linear someLib realCos ((Iter.new).setLevels 10) patchP).1 = .ok out ∧
    ((∀ t ∈ patchP.tris, ∀ e ∈ t.darts, dist (patchP.place e.1) (patchP.place e.2) ≤ 100) →
    ∀ t ∈ out.tris, ∀ e ∈ t.darts, dist (out.place e.1) (out.place e.2) ≤ 100 / 2 ^ 10) := by
  obtain ⟨-, out, -, h, -⟩ := C50_linear_quarters (f := Iter.new.setLevels 10) someLib realCos rfl patchP_ok.1
  exact ⟨out, h, C50_linear_mesh_size rfl patchP_ok.1 h⟩

/-- one triangle of the tetrahedron after three levels -/
example : ∃ T out T', tetraMesh.At T ∧ (iterUpdate .linear someLib cos0 ((Iter.new).setLevels 3) tetraMesh).1 = .ok out ∧ out.At T' ∧
    T'.length = 256 ∧ ∀ x ∈ T', ∃ t ∈ T, ∃ s : ℚ, (s = 1 / 8 ∨ s = -1 / 8) ∧ ScaledCopy s t x := by
  obtain ⟨T, out, h1, h2, h3⟩ := C50_linear_quarters (f := Iter.new.setLevels 3) someLib cos0 rfl tetraMesh_ok.1
  have hT : T.length = 4 := by
    have := congrArg List.length h1
    simpa [Mesh.coordTris, tetraMesh_ok.2.2.2, tetra] using this.symm
  refine ⟨T, out, _, h1, h2, h3, ?_, fun x hx => ?_⟩
  · have : ∀ (n : Nat) (T : List (Q3 × Q3 × Q3)), (quarters ℚ n T).length = 4 ^ n * T.length := by
      intro n
      induction n with
      | zero => intro T; simp [quarters]
      | succ n ih => intro T; simp [quarters, ih, quarter, List.length_flatMap, pow_succ]; ring
    rw [this, hT]; rfl
  · obtain ⟨t, ht, s, hs, hc⟩ := C50_linear_shapes rfl tetraMesh_ok.1 h2 h1 h3 x hx
    refine ⟨t, ht, s, ?_, hc⟩
    rcases hs with rfl | rfl
    · exact .inl (by norm_num [Iter.setLevels, Iter.new])
    · exact .inr (by norm_num [Iter.setLevels, Iter.new])

end Verif
