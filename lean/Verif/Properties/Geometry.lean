import Verif.Proofs.Geometry
import Verif.Properties.Conditional
import Verif.Properties.Points
import Mathlib.Algebra.Order.Archimedean.Basic
import Mathlib.Analysis.InnerProductSpace.PiL2
/-
C21, C32, C33 and C34 for thresholds that are zero: the geometry of the Linear filters in a real inner product space `E`
(Euclidean space of any dimension).
-/
namespace Verif
set_option linter.unusedSectionVars false
open scoped InnerProductSpace
variable {E D : Type} [NormedAddCommGroup E] [InnerProductSpace ℝ E]
variable {lib : QELib} {cosn : Nat → ℝ} {f f' : Filt} {inp out : Mesh E D}

section samples

abbrev R2 := EuclideanSpace ℝ (Fin 2)

/-- four triangles in the plane -/
noncomputable def patchP : Mesh R2 Nat := mk [!₂[0, 0], !₂[4, 0], !₂[0, 4], !₂[3, -4], !₂[4, 4], !₂[-4, 1]] patch none

theorem patchP_ok : patchP.Valid ∧ patchP.RingOK ∧ patchP.NoIsolated ∧ patchP.tris = patch := mk_ok _ (by decide)

theorem patchP_area : 8 ≤ patchP.totalArea := by
  have h1 : patchP.areaOf (0, 1, 2) = 8 := by
    have : Real.sqrt 256 = 16 := by rw [show (256 : ℝ) = 16 ^ 2 by norm_num]; exact Real.sqrt_sq (by norm_num)
    simp [Mesh.areaOf, triArea, Mesh.place, Mesh.pos, patchP, mk, meshOf, AMap.find?,
      EuclideanSpace.norm_eq, PiLp.inner_apply]
    norm_num [this]
  have : patchP.areaOf (0, 1, 2) ≤ patchP.totalArea := by
    refine List.single_le_sum (fun x hx => by obtain ⟨t, -, rfl⟩ := List.mem_map.1 hx; exact triArea_nonneg _ _ _) _
      (List.mem_map.2 ⟨_, ?_, rfl⟩)
    rw [patchP_ok.2.2.2]; decide
  rw [← h1]; exact this

theorem patchP_place : patchP.place 0 ≠ patchP.place 1 := by
  simp [Mesh.place, Mesh.pos, patchP, mk, meshOf, AMap.find?]

end samples

theorem place_of_pos {m : Mesh E D} {v : PId} {p : E} (h : m.pos v = some p) : m.place v = p := by
  unfold Mesh.place; rw [h]; rfl

theorem Mesh.Valid.pos_place {m : Mesh E D} (h : m.Valid) {v : PId} (hv : v < m.points.length) :
    m.pos v = some (m.place v) := h.pos_eq hv

theorem place_kept (hk : ∀ v p, inp.pos v = some p → out.pos v = some p) (hv : inp.Valid) {v : PId}
    (h : v < inp.points.length) : out.place v = inp.place v :=
  place_of_pos (hk _ _ (hv.pos_place h))

/-- C07 for the Linear edge filter: the point that it inserts on an edge is its midpoint. -/
theorem C07_linear_midpoints_edge (hv : inp.Valid) (hsel : inp.EdgeSelOK f.edgeSel)
    (h : edgeUpdate .linear lib cosn f inp = (.ok out, f')) {a b m : PId} (hm : inp.listPoint f.edgeSel (a, b) = some m)
    {pa pb : E} (ha : inp.pos a = some pa) (hb : inp.pos b = some pb) :
    out.pos m = some ((1 / 2 : ℝ) • pa + (1 / 2 : ℝ) • pb) := by
  have hn : EdgeScheme.linear.toScheme.Needs inp := ⟨hv, by simp [EdgeScheme.toScheme], by simp [EdgeScheme.toScheme]⟩
  obtain ⟨e', p, h1, h2, h3, h4⟩ := edgeUpdate_edgeValue hn hsel h hm
  have h5 : linearPoint ℝ inp e' = .ok p := h3
  have h6 : linearPoint ℝ inp (a, b) = .ok p := by
    rcases h1 with rfl | rfl
    · exact h5
    · exact (linearPoint_sym hv h2).trans h5
  have h7 : inp.IsEdge (a, b) := by
    rcases h1 with rfl | rfl
    · exact h2
    · exact h2.sym
  rw [linearPoint_ok hv h7] at h6
  rw [h4, ← Except.ok.inj h6]
  simp only [midPoint, Mesh.coord_of_pos ha, Mesh.coord_of_pos hb, smul_add]

example : ∃ out f', edgeUpdate .linear someLib realCos (Filt.new.setEdges [some (1, 0)]) patchP = (.ok out, f') ∧
    out.pos 6 = some ((1 / 2 : ℝ) • !₂[0, 0] + (1 / 2 : ℝ) • !₂[4, 0]) := by
  have hsel : patchP.EdgeSelOK (Filt.new.setEdges [some (1, 0)]).edgeSel := by
    intro e he
    have : e = (1, 0) := by simpa [Filt.setEdges, Filt.new] using he
    subst this
    exact (patchP_ok.1.isEdge_of_dart (by rw [patchP_ok.2.2.2]; decide) : patchP.IsEdge (1, 0))
  obtain ⟨out, f', h, -⟩ := C39_edge_filter_completes (sch := .linear) (f := Filt.new.setEdges [some (1, 0)]) someLib
    realCos ⟨patchP_ok.1, by simp [EdgeScheme.toScheme], by simp [EdgeScheme.toScheme]⟩ hsel
  exact ⟨out, f', h, C07_linear_midpoints_edge patchP_ok.1 hsel h (a := 0) (b := 1) (by decide) rfl rfl⟩

/-- how a mesh is split at the midpoints of some of its edges -/
structure SplitAtMid (inp out : Mesh E D) (μ : Edge → Option PId) : Prop where
  tris : out.tris = inp.tris.flatMap (Tri.children μ)
  kept : ∀ t ∈ inp.tris, ∀ v ∈ t.verts, out.place v = inp.place v
  mid : ∀ t ∈ inp.tris, AtMid μ out.place t

theorem linear_split (hv : inp.Valid) (hsel : inp.SelOK f.cells) (h : cellUpdate .linear lib cosn f inp = (.ok out, f')) :
    SplitAtMid inp out (inp.edgePoint f.cells) := by
  have hn : Scheme.linear.Needs inp := ⟨hv, by simp, by simp⟩
  have hk := C06_original_points_kept (by decide) hv.points_dense h
  have hkept : ∀ t ∈ inp.tris, ∀ v ∈ t.verts, out.place v = inp.place v :=
    fun t ht v hvt => place_kept hk hv (hv.verts_lt ht hvt)
  refine ⟨(cellUpdate_result (by decide) hn hsel h).1.tris, hkept, ?_⟩
  rintro t ht ⟨a, b⟩ he m hm
  have h1 := hv.isEdge_lt (hv.isEdge_of_dart (mem_dartsOf.2 ⟨t, ht, he⟩))
  rw [place_kept hk hv h1.1, place_kept hk hv h1.2]
  exact place_of_pos (C07_linear_midpoints hv hsel h hm (hv.pos_place h1.1) (hv.pos_place h1.2))

theorem linear_edge_split (hv : inp.Valid) (hsel : inp.EdgeSelOK f.edgeSel)
    (h : edgeUpdate .linear lib cosn f inp = (.ok out, f')) : SplitAtMid inp out (inp.listPoint f.edgeSel) := by
  have hn : EdgeScheme.linear.toScheme.Needs inp := ⟨hv, by simp [EdgeScheme.toScheme], by simp [EdgeScheme.toScheme]⟩
  have hk := C06_original_points_kept_edge hv.points_dense h
  have hkept : ∀ t ∈ inp.tris, ∀ v ∈ t.verts, out.place v = inp.place v :=
    fun t ht v hvt => place_kept hk hv (hv.verts_lt ht hvt)
  refine ⟨(edgeUpdate_result hn hsel h).tris, hkept, ?_⟩
  rintro t ht ⟨a, b⟩ he m hm
  have h1 := hv.isEdge_lt (hv.isEdge_of_dart (mem_dartsOf.2 ⟨t, ht, he⟩))
  rw [place_kept hk hv h1.1, place_kept hk hv h1.2]
  exact place_of_pos (C07_linear_midpoints_edge hv hsel h hm (hv.pos_place h1.1) (hv.pos_place h1.2))

namespace SplitAtMid
variable {μ : Edge → Option PId}

theorem areaOf_parent (S : SplitAtMid inp out μ) {t : Tri} (ht : t ∈ inp.tris) :
    triArea (out.place t.1) (out.place t.2.1) (out.place t.2.2) = inp.areaOf t := by
  rw [S.kept t ht t.1 (by simp [Tri.verts]), S.kept t ht t.2.1 (by simp [Tri.verts]),
    S.kept t ht t.2.2 (by simp [Tri.verts])]
  rfl

theorem surface_eq (S : SplitAtMid inp out μ) : out.surface = inp.surface := by
  ext x
  unfold Mesh.surface
  simp only [Set.mem_ofPred_eq, S.tris, List.mem_flatMap]
  have key : ∀ t ∈ inp.tris, (x ∈ convexHull ℝ {inp.place t.1, inp.place t.2.1, inp.place t.2.2} ↔
      ∃ d ∈ t.children μ, x ∈ convexHull ℝ {out.place d.1, out.place d.2.1, out.place d.2.2}) := by
    intro t ht
    rw [← children_hull (S.mid t ht), S.kept t ht t.1 (by simp [Tri.verts]), S.kept t ht t.2.1 (by simp [Tri.verts]),
      S.kept t ht t.2.2 (by simp [Tri.verts])]
  constructor
  · rintro ⟨d, ⟨t, ht, hd⟩, hx⟩
    exact ⟨t, ht, (key t ht).2 ⟨d, hd, hx⟩⟩
  · rintro ⟨t, ht, hx⟩
    obtain ⟨d, hd, hx⟩ := (key t ht).1 hx
    exact ⟨d, ⟨t, ht, hd⟩, hx⟩

theorem totalArea_eq (S : SplitAtMid inp out μ) : out.totalArea = inp.totalArea := by
  unfold Mesh.totalArea
  rw [S.tris]
  have key : ∀ T : List Tri, (∀ t ∈ T, t ∈ inp.tris) →
      ((T.flatMap (Tri.children μ)).map out.areaOf).sum = (T.map inp.areaOf).sum := by
    intro T
    induction T with
    | nil => intro _; rfl
    | cons t T ih =>
      intro hT
      rw [List.flatMap_cons, List.map_append, List.sum_append, ih (fun t h => hT t (by simp [h])), List.map_cons,
        List.sum_cons, ← S.areaOf_parent (hT t (by simp)), ← children_area_sum (S.mid t (hT t (by simp)))]
      rfl
  exact key _ fun _ h => h

theorem area_le (S : SplitAtMid inp out μ) {t d : Tri} (ht : t ∈ inp.tris) (hd : d ∈ t.children μ) :
    out.areaOf d ≤ inp.areaOf t := by
  rw [← S.areaOf_parent ht]; exact child_area_le (S.mid t ht) hd

theorem area_quarter (S : SplitAtMid inp out μ) {t d : Tri} (ht : t ∈ inp.tris) (hs : ∀ e ∈ t.darts, (μ e).isSome)
    (hd : d ∈ t.children μ) : out.areaOf d = 1 / 4 * inp.areaOf t := by
  rw [← S.areaOf_parent ht]; exact child_area_quarter (S.mid t ht) hs hd

end SplitAtMid

/-- all edges of a selected triangle are split -/
theorem selected_split {sel : List CId} {t : Tri} (ht : t ∈ inp.selected sel) :
    ∀ e ∈ t.darts, (inp.edgePoint sel e).isSome := fun _ he =>
  (edgePoint_isSome _ _ _).2 (Or.inl (mem_dartsOf.2 ⟨t, ht, he⟩))

/-- C21. The Linear filter does not change the surface: the union of the filled output triangles is that of the input
triangles, the total area is the same, and every child of a triangle that is subdivided (in a uniform run: every
triangle) has a quarter of its area. -/
theorem C21_linear_same_surface (hv : inp.Valid) (hsel : inp.SelOK f.cells)
    (h : cellUpdate .linear lib cosn f inp = (.ok out, f')) :
    out.surface = inp.surface ∧ out.totalArea = inp.totalArea ∧
    (∀ t ∈ inp.selected f.cells, ∀ d ∈ t.children (inp.edgePoint f.cells), d ∈ out.tris ∧ out.areaOf d = 1 / 4 * inp.areaOf t) ∧
    (f.cells = [] → inp.selected f.cells = inp.tris) := by
  have S := linear_split hv hsel h
  refine ⟨S.surface_eq, S.totalArea_eq, fun t ht d hd => ⟨?_, ?_⟩, ?_⟩
  · rw [S.tris]; exact List.mem_flatMap.2 ⟨t, hv.selected_subset _ t ht, hd⟩
  · exact S.area_quarter (hv.selected_subset _ t ht) (selected_split ht) hd
  · intro h; rw [h]; rfl

example : ∃ out f', cellUpdate .linear someLib realCos (usedFilt [1, 3]) patchP = (.ok out, f') ∧
    out.surface = patchP.surface ∧ 8 ≤ out.totalArea := by
  have hsel : patchP.SelOK (usedFilt [1, 3]).cells := by unfold Mesh.SelOK; decide
  obtain ⟨out, f', h, -⟩ := C01_face_split_completes (sch := .linear) (f := usedFilt [1, 3]) (by decide) someLib realCos
    ⟨patchP_ok.1, by simp, by simp⟩ hsel
  obtain ⟨h1, h2, -⟩ := C21_linear_same_surface patchP_ok.1 hsel h
  exact ⟨out, f', h, h1, by rw [h2]; exact patchP_area⟩

/-- C21 for the Linear edge filter. -/
theorem C21_linear_edge_same_surface (hv : inp.Valid) (hsel : inp.EdgeSelOK f.edgeSel)
    (h : edgeUpdate .linear lib cosn f inp = (.ok out, f')) :
    out.surface = inp.surface ∧ out.totalArea = inp.totalArea ∧
    ∀ t ∈ inp.tris, ∀ d ∈ t.children (inp.listPoint f.edgeSel), d ∈ out.tris ∧ out.areaOf d ≤ inp.areaOf t := by
  have S := linear_edge_split hv hsel h
  refine ⟨S.surface_eq, S.totalArea_eq, fun t ht d hd => ⟨?_, S.area_le ht hd⟩⟩
  rw [S.tris]; exact List.mem_flatMap.2 ⟨t, ht, hd⟩

example : ∃ out f', edgeUpdate .linear someLib realCos Filt.new patchP = (.ok out, f') ∧
    out.surface = patchP.surface ∧ 8 ≤ out.totalArea := by
  have hsel : patchP.EdgeSelOK Filt.new.edgeSel := by intro e he; cases he
  obtain ⟨out, f', h, -⟩ := C39_edge_filter_completes (sch := .linear) (f := Filt.new) someLib
    realCos ⟨patchP_ok.1, by simp [EdgeScheme.toScheme], by simp [EdgeScheme.toScheme]⟩ hsel
  obtain ⟨h1, h2, -⟩ := C21_linear_edge_same_surface patchP_ok.1 hsel h
  exact ⟨out, f', h, h1, by rw [h2]; exact patchP_area⟩

section conditional

theorem tooLarge_iff (hv : inp.Valid) {A : ℝ} {t : Tri} {k : CId} (hk : (k, some t.cell) ∈ inp.cells) :
    inp.TooLarge heronArea A k ↔ A < inp.areaOf t := by
  have ht : t ∈ inp.tris := hv.mem_tris.2 ⟨k, hk⟩
  have hp : ∀ v ∈ t.verts, inp.pos v = some (inp.place v) := fun v h => hv.pos_place (hv.verts_lt ht h)
  have e1 := hp t.1 (by simp [Tri.verts])
  have e2 := hp t.2.1 (by simp [Tri.verts])
  have e3 := hp t.2.2 (by simp [Tri.verts])
  constructor
  · rintro ⟨t', pa, pb, pc, h1, h2, h3, h4, h5⟩
    have : t' = t := by
      have h6 := (hv.triAt_iff (t := t')).2 h1
      rw [hv.triAt_iff.2 hk] at h6
      exact (Option.some.inj h6).symm
    subst this
    rw [heronArea_eq] at h5
    rw [Mesh.areaOf, place_of_pos h2, place_of_pos h3, place_of_pos h4]
    exact h5
  · intro h
    refine ⟨t, _, _, _, hk, e1, e2, e3, ?_⟩
    rw [heronArea_eq]
    exact h

/-- what one iteration of the conditional Linear filter does to the areas -/
theorem area_iteration (hv : inp.Valid) {sel : List CId} (hne : sel ≠ []) {A M : ℝ}
    (hs : ∀ k, k ∈ sel ↔ inp.TooLarge heronArea A k) (S : SplitAtMid inp out (inp.edgePoint sel))
    (hM : ∀ t ∈ inp.tris, inp.areaOf t ≤ M) : ∀ d ∈ out.tris, out.areaOf d ≤ max A (M / 4) := by
  intro d hd
  rw [S.tris, List.mem_flatMap] at hd
  obtain ⟨t, ht, hd⟩ := hd
  obtain ⟨k, hk⟩ := hv.mem_tris.1 ht
  by_cases hb : A < inp.areaOf t
  · have h1 : t ∈ inp.selected sel := (hv.mem_selected hne).2 ⟨k, (hs k).2 ((tooLarge_iff hv hk).2 hb), hk⟩
    rw [S.area_quarter ht (selected_split h1) hd]
    have := hM t ht
    exact le_max_of_le_right (by linarith)
  · exact le_max_of_le_left ((S.area_le ht hd).trans (not_lt.1 hb))

theorem place_copyGeometry (hv : inp.Valid) : (copyGeometry lib inp).place = inp.place := by
  funext v
  unfold Mesh.place Mesh.pos
  rw [copyGeometry_points lib hv]

theorem areaOf_copyGeometry (hv : inp.Valid) : (copyGeometry lib inp).areaOf = inp.areaOf := by
  funext t
  unfold Mesh.areaOf
  rw [place_copyGeometry hv]

theorem surface_copyGeometry (hv : inp.Valid) : (copyGeometry lib inp).surface = inp.surface := by
  unfold Mesh.surface
  rw [place_copyGeometry hv, copyGeometry_tris lib hv]

theorem totalArea_copyGeometry (hv : inp.Valid) : (copyGeometry lib inp).totalArea = inp.totalArea := by
  unfold Mesh.totalArea
  rw [areaOf_copyGeometry hv, copyGeometry_tris lib hv]

/-- C32. With the Linear filter and a positive `MaximumArea` `A`, `Update()` of the conditional filter returns within `n`
iterations when `4 ^ n * A` bounds the areas of the input; the output is valid, covers the same surface with the same
total area, keeps the points of the input, and none of its triangles is larger than `A`. -/
theorem C32_area_terminates (hv : inp.Valid) {A : ℝ} (hA : 0 < A) {n : Nat} (hn : ∀ t ∈ inp.tris, inp.areaOf t ≤ 4 ^ n * A)
    (lib : QELib) (cosn : Nat → ℝ) (c : Cond Filt CId) :
    ∃ out c', (∀ fuel, n ≤ fuel →
        condGenerate lib (condCellUpd .linear lib cosn) (some (areaCompute heronArea A)) fuel c inp = some (.ok out, c')) ∧
      out.Valid ∧ out.surface = inp.surface ∧ out.totalArea = inp.totalArea ∧
      (∀ v p, inp.pos v = some p → out.pos v = some p) ∧ ∀ t ∈ out.tris, out.areaOf t ≤ A := by
  have hcrit : ∀ (m : Mesh E D) (old : List CId), m.Valid → ∃ l, areaCompute heronArea A m old = (.ok (), l) ∧
      ∀ k, k ∈ l ↔ m.TooLarge heronArea A k := by
    intro m old hm
    obtain ⟨l, h1, -, h2⟩ := C28_area_exact heronArea A hm.cells_sorted hm.allTriangles hm.cornersExist old
    exact ⟨l, h1, h2⟩
  have hv' := copyGeometry_valid lib hv
  obtain ⟨l, h1, h2⟩ := hcrit _ c.sel hv'
  let I : Nat → Cond Filt CId → Mesh E D → Prop := fun k c cur =>
    cur.Valid ∧ cur.surface = inp.surface ∧ cur.totalArea = inp.totalArea ∧
      (∀ v p, inp.pos v = some p → cur.pos v = some p) ∧ (∀ t ∈ cur.tris, cur.areaOf t ≤ 4 ^ k * A) ∧
      ∀ k, k ∈ c.sel ↔ cur.TooLarge heronArea A k
  have hzero : ∀ c cur, I 0 c cur → c.sel = [] := by
    rintro c cur ⟨k1, -, -, -, k2, k3⟩
    rw [List.eq_nil_iff_forall_not_mem]
    intro k hk
    have hT := (k3 k).1 hk
    obtain ⟨t, _, _, _, hk', -⟩ := id hT
    have := (tooLarge_iff k1 hk').1 hT
    have := k2 t (k1.mem_tris.2 ⟨k, hk'⟩)
    simp at this
    linarith
  have hstep : ∀ k c cur, I (k + 1) c cur → c.sel ≠ [] → ∃ m s' sel', condCellUpd .linear lib cosn c.inner c.sel cur =
      (.ok m, s') ∧ areaCompute heronArea A m c.sel = (.ok (), sel') ∧ I k ⟨s', sel'⟩ m := by
    rintro k c cur ⟨k1, k2, k3, k4, k5, k6⟩ hs
    obtain ⟨m, f', h4, h5, h6, h7⟩ := condCellUpd_ok (sch := .linear) (lib := lib) cosn (by decide) (by simp)
      ⟨k1, by simp, by simp⟩ (sel := c.sel) (fun k hk => TooLarge.mem ((k6 k).1 hk)) c.inner
    have hsel : cur.SelOK (c.inner.setCells c.sel).cells := fun k hk => TooLarge.mem ((k6 k).1 hk)
    have S := linear_split k1 hsel h5
    obtain ⟨l, h8, h9⟩ := hcrit m c.sel h6.valid
    refine ⟨m, f', l, h4, h8, h6.valid, S.surface_eq.trans k2, S.totalArea_eq.trans k3, fun v p h => ?_, ?_, h9⟩
    · exact C06_original_points_kept (by decide) k1.points_dense h5 v p (k4 v p h)
    · intro d hd
      refine (area_iteration k1 hs k6 S k5 d hd).trans (max_le ?_ ?_)
      · exact le_mul_of_one_le_left hA.le (one_le_pow₀ (by norm_num))
      · rw [pow_succ]; linarith
  have hinit : I n ⟨c.inner, l⟩ (copyGeometry lib inp) :=
    ⟨hv', surface_copyGeometry hv, totalArea_copyGeometry hv,
      fun v p h => by simpa only [Mesh.pos, copyGeometry_points lib hv] using h,
      by rw [copyGeometry_tris lib hv, areaOf_copyGeometry hv]; exact hn, h2⟩
  obtain ⟨out, c', k, h3, -, h4, h5, h6, h7, h8, h9⟩ := condLoop_ends I hzero hstep n hinit
  have h10 : condGenerate lib (condCellUpd .linear lib cosn) (some (areaCompute heronArea A)) n c inp =
      some (.ok out, c') := by
    unfold condGenerate
    simp only [h1]
    exact h3
  refine ⟨out, c', fun fuel hf => condGenerate_mono h10 hf, h4, h5, h6, h7, fun t ht => ?_⟩
  obtain ⟨k, hk⟩ := h4.mem_tris.1 ht
  have h11 := (C30_area_postcondition h10).2.2.1 k
  rw [tooLarge_iff h4 hk] at h11
  exact not_lt.1 h11

/-- C32: hence `Update()` returns on every valid mesh, for every positive threshold. -/
theorem C32_area_returns (hv : inp.Valid) {A : ℝ} (hA : 0 < A) (lib : QELib) (cosn : Nat → ℝ) (c : Cond Filt CId) :
    ∃ n out c', ∀ fuel, n ≤ fuel →
      condGenerate lib (condCellUpd .linear lib cosn) (some (areaCompute heronArea A)) fuel c inp = some (.ok out, c') := by
  obtain ⟨M, hM⟩ : ∃ M : ℝ, ∀ t ∈ inp.tris, inp.areaOf t ≤ M := by
    refine ⟨inp.totalArea, fun t ht => ?_⟩
    exact List.single_le_sum (fun x hx => by obtain ⟨t, -, rfl⟩ := List.mem_map.1 hx; exact triArea_nonneg _ _ _) _
      (List.mem_map.2 ⟨t, ht, rfl⟩)
  obtain ⟨n, hn⟩ := pow_unbounded_of_one_lt (M / A) (show (1 : ℝ) < 4 by norm_num)
  obtain ⟨out, c', h, -⟩ := C32_area_terminates hv hA (n := n)
    (fun t ht => (hM t ht).trans (by rw [div_lt_iff₀ hA] at hn; exact hn.le)) lib cosn c
  exact ⟨n, out, c', h⟩

example : ∃ n out c', ∀ fuel, n ≤ fuel → condGenerate someLib (condCellUpd .linear someLib realCos)
    (some (areaCompute heronArea (1 / 100))) fuel ⟨usedFilt [1, 3], [5]⟩ patchP = some (.ok out, c') :=
  C32_area_returns patchP_ok.1 (by norm_num) _ _ _

theorem tooLong_iff (hv : inp.Valid) {L : ℝ} {e : Edge} (he : inp.IsEdge e) :
    inp.TooLong dist L e ↔ L < dist (inp.place e.1) (inp.place e.2) := by
  have h := hv.isEdge_lt he
  constructor
  · rintro ⟨p, q, h1, h2, h3⟩
    rw [place_of_pos h1, place_of_pos h2]; exact h3
  · intro h3
    exact ⟨_, _, hv.pos_place h.1, hv.pos_place h.2, h3⟩

/-- which edges one iteration of the conditional Linear edge filter splits -/
theorem length_split (hv : inp.Valid) {l : List Edge} (hne : l ≠ []) {L : ℝ}
    (hs : ∀ e, e ∈ l ↔ e ∈ inp.edges ∧ inp.TooLong dist L e) {e : Edge} (he : inp.IsEdge e) :
    (inp.listPoint (l.map some) e).isSome = true ↔ L < dist (inp.place e.1) (inp.place e.2) := by
  unfold Mesh.listPoint
  rw [lastLabel_isSome, selectedEdges_some _ hne, hs, hs, tooLong_iff hv he, tooLong_iff hv he.sym]
  have hsym : dist (inp.place e.sym.1) (inp.place e.sym.2) = dist (inp.place e.1) (inp.place e.2) := dist_comm _ _
  rw [hsym]
  constructor
  · rintro (h | h) <;> exact h.2
  · intro h
    rcases he with he | he
    · exact Or.inl ⟨he, h⟩
    · exact Or.inr ⟨he, h⟩

theorem sqd_eq (p q : E) : sqd p q = dist p q ^ 2 := by rw [dist_eq_norm]; rfl

theorem length_iteration (hv : inp.Valid) {l : List Edge} (hne : l ≠ []) {L M : ℝ} (hL : 0 ≤ L)
    (hs : ∀ e, e ∈ l ↔ e ∈ inp.edges ∧ inp.TooLong dist L e) (S : SplitAtMid inp out (inp.listPoint (l.map some)))
    (hM : ∀ e ∈ dartsOf inp.tris, dist (inp.place e.1) (inp.place e.2) ^ 2 ≤ M) :
    ∀ e ∈ dartsOf out.tris, dist (out.place e.1) (out.place e.2) ^ 2 ≤ max (L ^ 2) (M / 2 + L ^ 2 / 4) := by
  intro e he
  obtain ⟨d, hd, he⟩ := mem_dartsOf.1 he
  rw [S.tris, List.mem_flatMap] at hd
  obtain ⟨t, ht, hd⟩ := hd
  rw [← sqd_eq]
  have hk : ∀ e ∈ t.darts, sqd (out.place e.1) (out.place e.2) = dist (inp.place e.1) (inp.place e.2) ^ 2 := by
    intro e he
    have h1 := And.intro (Tri.dart_fst he) (Tri.dart_snd he)
    rw [S.kept t ht _ h1.1, S.kept t ht _ h1.2, sqd_eq]
  refine children_sqd (S.mid t ht) (sq_nonneg L) (fun e he => ?_) (fun e he => ?_) hd he
  · rw [hk e he, length_split hv hne hs (hv.isEdge_of_dart (mem_dartsOf.2 ⟨t, ht, he⟩))]
    exact (sq_lt_sq₀ hL dist_nonneg).symm
  · rw [hk e he]; exact hM e (mem_dartsOf.2 ⟨t, ht, he⟩)

/-- C33. With the Linear edge filter and a positive `MaximumLength` `L`, `Update()` of the conditional filter returns
within `n` iterations when `(1 + 2 ^ n) / 2 * L ^ 2` bounds the squares of the edge lengths of the input; the output is
valid, covers the same surface with the same total area, keeps the points of the input, and none of its edges is longer
than `L`. -/
theorem C33_length_terminates (hv : inp.Valid) {L : ℝ} (hL : 0 < L) {n : Nat}
    (hn : ∀ e ∈ dartsOf inp.tris, dist (inp.place e.1) (inp.place e.2) ^ 2 ≤ (1 + 2 ^ n) / 2 * L ^ 2)
    (lib : QELib) (cosn : Nat → ℝ) (c : Cond Filt (Option Edge)) :
    ∃ out c', (∀ fuel, n ≤ fuel →
        condGenerate lib (condEdgeUpd .linear lib cosn) (some (lengthCompute dist L)) fuel c inp = some (.ok out, c')) ∧
      out.Valid ∧ out.surface = inp.surface ∧ out.totalArea = inp.totalArea ∧
      (∀ v p, inp.pos v = some p → out.pos v = some p) ∧
      ∀ e ∈ dartsOf out.tris, dist (out.place e.1) (out.place e.2) ≤ L := by
  have hcrit : ∀ (m : Mesh E D) (old : List (Option Edge)), m.Valid → ∃ l : List Edge,
      lengthCompute dist L m old = (.ok (), l.map some) ∧ (∀ e, e ∈ l ↔ e ∈ m.edges ∧ m.TooLong dist L e) ∧
      DistinctEdges l := by
    intro m old hm
    obtain ⟨l, h1, -, h2, h3⟩ := C29_length_exact dist L hm.has_edge_cells hm.endsExist old
    exact ⟨l, h1, h2, h3 hm.edges_once⟩
  have hv' := copyGeometry_valid lib hv
  obtain ⟨l, h1, h2, h2'⟩ := hcrit _ c.sel hv'
  let I : Nat → Cond Filt (Option Edge) → Mesh E D → Prop := fun k c cur =>
    cur.Valid ∧ cur.surface = inp.surface ∧ cur.totalArea = inp.totalArea ∧
      (∀ v p, inp.pos v = some p → cur.pos v = some p) ∧
      (∀ e ∈ dartsOf cur.tris, dist (cur.place e.1) (cur.place e.2) ^ 2 ≤ (1 + 2 ^ k) / 2 * L ^ 2) ∧
      ∃ l : List Edge, c.sel = l.map some ∧ (∀ e, e ∈ l ↔ e ∈ cur.edges ∧ cur.TooLong dist L e) ∧ DistinctEdges l
  have hdart : ∀ {m : Mesh E D}, m.Valid → ∀ {B : ℝ}, (∀ e ∈ dartsOf m.tris, dist (m.place e.1) (m.place e.2) ≤ B) →
      ∀ e, m.IsEdge e → dist (m.place e.1) (m.place e.2) ≤ B := by
    intro m hm B hB e he
    rcases (hm.edges_iff e).1 he with h | h
    · exact hB e h
    · rw [dist_comm]; exact hB _ h
  have hzero : ∀ c cur, I 0 c cur → c.sel = [] := by
    rintro c cur ⟨k1, -, -, -, k2, l, k3, k4, -⟩
    have : l = [] := by
      rw [List.eq_nil_iff_forall_not_mem]
      intro e he
      obtain ⟨h3, h4⟩ := (k4 e).1 he
      rw [tooLong_iff k1 (Or.inl h3)] at h4
      refine absurd (hdart k1 (B := L) (fun e he => ?_) e (Or.inl h3)) (not_le.2 h4)
      have := k2 e he
      refine (sq_le_sq₀ dist_nonneg hL.le).1 (this.trans (le_of_eq ?_))
      norm_num
    rw [k3, this]; rfl
  have hstep : ∀ k c cur, I (k + 1) c cur → c.sel ≠ [] → ∃ m s' sel', condEdgeUpd .linear lib cosn c.inner c.sel cur =
      (.ok m, s') ∧ lengthCompute dist L m c.sel = (.ok (), sel') ∧ I k ⟨s', sel'⟩ m := by
    rintro k c cur ⟨k1, k2, k3, k4, k5, l, k6, k7, k8⟩ hs
    have hne : l ≠ [] := by rintro rfl; exact hs k6
    have hE : ∀ e ∈ l, cur.IsEdge e := fun e he => Or.inl ((k7 e).1 he).1
    obtain ⟨m, f', h4, h5, h6, h7⟩ := condEdgeUpd_ok (sch := .linear) (lib := lib) cosn (by simp)
      ⟨k1, by simp [EdgeScheme.toScheme], by simp [EdgeScheme.toScheme]⟩ hne hE k8 c.inner
    have hsel : cur.EdgeSelOK (c.inner.setEdges (l.map some)).edgeSel := by
      intro e he
      obtain ⟨e', he', h⟩ := List.mem_map.1 he
      cases h
      exact hE _ he'
    have S : SplitAtMid cur m (cur.listPoint (l.map some)) := linear_edge_split k1 hsel h5
    obtain ⟨l', h8, h9, h10⟩ := hcrit m c.sel h6.valid
    refine ⟨m, f', _, by rw [k6]; exact h4, h8, h6.valid, S.surface_eq.trans k2, S.totalArea_eq.trans k3, fun v p h => ?_,
      ?_, l', rfl, h9, h10⟩
    · exact C06_original_points_kept_edge k1.points_dense h5 v p (k4 v p h)
    · intro d hd
      refine (length_iteration k1 hne hL.le k7 S k5 d hd).trans (max_le ?_ ?_)
      · have : (1 : ℝ) ≤ 2 ^ k := one_le_pow₀ (by norm_num)
        nlinarith [sq_nonneg L]
      · rw [pow_succ]; linarith
  have hinit : I n ⟨c.inner, l.map some⟩ (copyGeometry lib inp) :=
    ⟨hv', surface_copyGeometry hv, totalArea_copyGeometry hv,
      fun v p h => by simpa only [Mesh.pos, copyGeometry_points lib hv] using h,
      by rw [copyGeometry_tris lib hv, place_copyGeometry hv]; exact hn, l, rfl, h2, h2'⟩
  obtain ⟨out, c', k, h3, -, h4, h5, h6, h7, h8, h9⟩ := condLoop_ends I hzero hstep n hinit
  have h10 : condGenerate lib (condEdgeUpd .linear lib cosn) (some (lengthCompute dist L)) n c inp =
      some (.ok out, c') := by
    unfold condGenerate
    simp only [h1]
    exact h3
  refine ⟨out, c', fun fuel hf => condGenerate_mono h10 hf, h4, h5, h6, h7, fun e he => ?_⟩
  have h11 := (C30_length_postcondition h10).2.1
  rcases h4.isEdge_of_dart he with h | h
  · have := h11 _ h
    rw [tooLong_iff h4 (Or.inl h)] at this
    exact not_lt.1 this
  · have := h11 _ h
    rw [tooLong_iff h4 (Or.inl h)] at this
    rw [dist_comm]
    exact not_lt.1 this

/-- C33: hence `Update()` returns on every valid mesh, for every positive threshold. -/
theorem C33_length_returns (hv : inp.Valid) {L : ℝ} (hL : 0 < L) (lib : QELib) (cosn : Nat → ℝ)
    (c : Cond Filt (Option Edge)) : ∃ n out c', ∀ fuel, n ≤ fuel →
      condGenerate lib (condEdgeUpd .linear lib cosn) (some (lengthCompute dist L)) fuel c inp = some (.ok out, c') := by
  obtain ⟨M, hM⟩ : ∃ M : ℝ, ∀ e ∈ dartsOf inp.tris, dist (inp.place e.1) (inp.place e.2) ^ 2 ≤ M := by
    refine ⟨((dartsOf inp.tris).map fun e => dist (inp.place e.1) (inp.place e.2) ^ 2).sum, fun e he => ?_⟩
    exact List.single_le_sum (fun x hx => by obtain ⟨e, -, rfl⟩ := List.mem_map.1 hx; exact sq_nonneg _) _
      (List.mem_map.2 ⟨e, he, rfl⟩)
  obtain ⟨n, hn⟩ := pow_unbounded_of_one_lt (2 * M / L ^ 2) (show (1 : ℝ) < 2 by norm_num)
  obtain ⟨out, c', h, -⟩ := C33_length_terminates hv hL (n := n)
    (fun e he => (hM e he).trans (by
      have := sq_pos_of_pos hL
      rw [div_lt_iff₀ this] at hn; nlinarith)) lib cosn c
  exact ⟨n, out, c', h⟩

example : ∃ n out c', ∀ fuel, n ≤ fuel → condGenerate someLib (condEdgeUpd .linear someLib realCos)
    (some (lengthCompute dist (1 / 100))) fuel ⟨Filt.new, [none]⟩ patchP = some (.ok out, c') :=
  C33_length_returns patchP_ok.1 (by norm_num) _ _ _

theorem sum_nonpos' {l : List ℝ} (h : ∀ x ∈ l, x ≤ 0) : l.sum ≤ 0 := by
  induction l with
  | nil => simp
  | cons x l ih =>
    rw [List.sum_cons]
    have h1 := h x (by simp)
    have h2 := ih fun y hy => h y (by simp [hy])
    linarith

/-- C34 is false for thresholds of zero and less with the Linear filter: when the input has a positive area, the loop does
not end after any number of iterations. -/
theorem C34_zero_area_refuted (hv : inp.Valid) (hT : 0 < inp.totalArea) {A : ℝ} (hA : A ≤ 0) (lib : QELib)
    (cosn : Nat → ℝ) (c : Cond Filt CId) (n : Nat) :
    condGenerate lib (condCellUpd .linear lib cosn) (some (areaCompute heronArea A)) n c inp = none := by
  have hcrit : ∀ (m : Mesh E D) (old : List CId), m.Valid → 0 < m.totalArea →
      ∃ l, areaCompute heronArea A m old = (.ok (), l) ∧ m.SelOK l ∧ l ≠ [] := by
    intro m old hm hmT
    obtain ⟨l, h1, -, h2⟩ := C28_area_exact heronArea A hm.cells_sorted hm.allTriangles hm.cornersExist old
    refine ⟨l, h1, fun k hk => TooLarge.mem ((h2 k).1 hk), ?_⟩
    obtain ⟨t, ht, h3⟩ : ∃ t ∈ m.tris, 0 < m.areaOf t := by
      by_contra hcon
      refine absurd hmT (not_lt.2 (sum_nonpos' fun x hx => ?_))
      obtain ⟨t, ht, rfl⟩ := List.mem_map.1 hx
      exact not_lt.1 fun h => hcon ⟨t, ht, h⟩
    obtain ⟨k, hk⟩ := hm.mem_tris.1 ht
    have : k ∈ l := (h2 k).2 ((tooLarge_iff hm hk).2 (lt_of_le_of_lt hA h3))
    exact List.ne_nil_of_mem this
  have hv' := copyGeometry_valid lib hv
  have hT' : 0 < (copyGeometry lib inp).totalArea := by rw [totalArea_copyGeometry hv]; exact hT
  obtain ⟨l, h1, h2, h3⟩ := hcrit _ c.sel hv' hT'
  unfold condGenerate
  simp only [h1]
  refine condLoop_diverges (fun c cur => cur.Valid ∧ 0 < cur.totalArea ∧ cur.SelOK c.sel ∧ c.sel ≠ [])
    (fun _ _ h => h.2.2.2) ?_ n ⟨hv', hT', h2, h3⟩
  rintro c cur ⟨k1, k2, k3, k4⟩
  obtain ⟨m, f', h4, h5, h6, h7⟩ := condCellUpd_ok (sch := .linear) (lib := lib) cosn (by decide) (by simp)
    ⟨k1, by simp, by simp⟩ k3 c.inner
  have S := linear_split k1 (f := c.inner.setCells c.sel) k3 h5
  have hmT : 0 < m.totalArea := by rw [S.totalArea_eq]; exact k2
  obtain ⟨l, h8, h9, h10⟩ := hcrit m c.sel h6.valid hmT
  exact ⟨m, f', l, h4, h8, h6.valid, hmT, h9, h10⟩

example (n : Nat) : condGenerate someLib (condCellUpd .linear someLib realCos) (some (areaCompute heronArea 0)) n
    ⟨Filt.new, []⟩ patchP = none :=
  C34_zero_area_refuted patchP_ok.1 (lt_of_lt_of_le (by norm_num) patchP_area) le_rfl _ _ _ n

/-- C34 is false for thresholds of zero and less with the Linear edge filter: when the ends of some edge of the input are
not at the same place, the loop does not end after any number of iterations. -/
theorem C34_zero_length_refuted (hv : inp.Valid) (hT : ∃ e ∈ dartsOf inp.tris, inp.place e.1 ≠ inp.place e.2) {L : ℝ}
    (hL : L ≤ 0) (lib : QELib) (cosn : Nat → ℝ) (c : Cond Filt (Option Edge)) (n : Nat) :
    condGenerate lib (condEdgeUpd .linear lib cosn) (some (lengthCompute dist L)) n c inp = none := by
  have hcrit : ∀ (m : Mesh E D) (old : List (Option Edge)), m.Valid →
      (∃ e ∈ dartsOf m.tris, m.place e.1 ≠ m.place e.2) → ∃ l : List Edge,
      lengthCompute dist L m old = (.ok (), l.map some) ∧ (∀ e ∈ l, m.IsEdge e) ∧ DistinctEdges l ∧ l ≠ [] := by
    rintro m old hm ⟨e, he, hd⟩
    obtain ⟨l, h1, -, h2, h3⟩ := C29_length_exact dist L hm.has_edge_cells hm.endsExist old
    refine ⟨l, h1, fun e he => Or.inl ((h2 e).1 he).1, h3 hm.edges_once, ?_⟩
    have hp : L < dist (m.place e.1) (m.place e.2) := lt_of_le_of_lt hL (dist_pos.2 hd)
    rcases hm.isEdge_of_dart he with h | h
    · exact List.ne_nil_of_mem ((h2 _).2 ⟨h, (tooLong_iff hm (Or.inl h)).2 hp⟩)
    · exact List.ne_nil_of_mem ((h2 _).2 ⟨h, (tooLong_iff hm (Or.inl h)).2 (by rw [dist_comm]; exact hp)⟩)
  have hv' := copyGeometry_valid lib hv
  have hT' : ∃ e ∈ dartsOf (copyGeometry lib inp).tris,
      (copyGeometry lib inp).place e.1 ≠ (copyGeometry lib inp).place e.2 := by
    rw [copyGeometry_tris lib hv, place_copyGeometry hv]; exact hT
  obtain ⟨l, h1, h2, h2', h3⟩ := hcrit _ c.sel hv' hT'
  unfold condGenerate
  simp only [h1]
  refine condLoop_diverges (fun c cur => cur.Valid ∧ (∃ e ∈ dartsOf cur.tris, cur.place e.1 ≠ cur.place e.2) ∧
    ∃ l : List Edge, c.sel = l.map some ∧ (∀ e ∈ l, cur.IsEdge e) ∧ DistinctEdges l ∧ l ≠ []) ?_
    ?_ n ⟨hv', hT', l, rfl, h2, h2', h3⟩
  · rintro c cur ⟨-, -, l, h, -, -, hne⟩
    rw [h]; simpa using hne
  rintro c cur ⟨k1, ⟨e, he, k2⟩, l, k3, k4, k5, k6⟩
  obtain ⟨m, f', h4, h5, h6, h7⟩ := condEdgeUpd_ok (sch := .linear) (lib := lib) cosn (by simp)
    ⟨k1, by simp [EdgeScheme.toScheme], by simp [EdgeScheme.toScheme]⟩ k6 k4 k5 c.inner
  have hsel : cur.EdgeSelOK (c.inner.setEdges (l.map some)).edgeSel := by
    intro e he
    obtain ⟨e', he', h⟩ := List.mem_map.1 he
    cases h
    exact k4 _ he'
  have S : SplitAtMid cur m (cur.listPoint (l.map some)) := linear_edge_split k1 hsel h5
  have hmT : ∃ e ∈ dartsOf m.tris, m.place e.1 ≠ m.place e.2 := by
    obtain ⟨t, ht, he⟩ := mem_dartsOf.1 he
    have h1 := And.intro (Tri.dart_fst he) (Tri.dart_snd he)
    have hin : ∀ {x : Edge}, x ∈ dartsOf (t.children (cur.listPoint (l.map some))) → x ∈ dartsOf m.tris := by
      intro x hx
      obtain ⟨d, hd, hx⟩ := mem_dartsOf.1 hx
      exact mem_dartsOf.2 ⟨d, by rw [S.tris]; exact List.mem_flatMap.2 ⟨t, ht, hd⟩, hx⟩
    rcases hμ : cur.listPoint (l.map some) e with _ | p
    · refine ⟨e, hin (children_keep _ t he hμ), ?_⟩
      rw [S.kept t ht _ h1.1, S.kept t ht _ h1.2]; exact k2
    · refine ⟨(e.1, p), hin (children_halves _ t he hμ).1, ?_⟩
      change m.place e.1 ≠ m.place p
      rw [S.mid t ht e he p hμ, S.kept t ht _ h1.1, S.kept t ht _ h1.2]
      intro h
      apply k2
      have : (1 / 2 : ℝ) • cur.place e.1 = (1 / 2 : ℝ) • cur.place e.2 := by
        have h' : (1 / 2 : ℝ) • cur.place e.1 + (1 / 2 : ℝ) • cur.place e.1 =
            (1 / 2 : ℝ) • cur.place e.1 + (1 / 2 : ℝ) • cur.place e.2 := by rw [← h]; module
        exact add_left_cancel h'
      exact smul_right_injective E (by norm_num : (1 / 2 : ℝ) ≠ 0) this
  obtain ⟨l', h8, h9, h10, h11⟩ := hcrit m c.sel h6.valid hmT
  exact ⟨m, f', _, by rw [k3]; exact h4, h8, h6.valid, hmT, l', rfl, h9, h10, h11⟩

example (n : Nat) : condGenerate someLib (condEdgeUpd .linear someLib realCos) (some (lengthCompute dist 0)) n
    ⟨Filt.new, []⟩ patchP = none :=
  C34_zero_length_refuted patchP_ok.1 ⟨(0, 1), by rw [patchP_ok.2.2.2]; decide, patchP_place⟩ le_rfl _ _ _ n

end conditional
end Verif
