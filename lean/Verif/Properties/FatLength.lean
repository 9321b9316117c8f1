import Verif.Proofs.FatLength
import Verif.Properties.FatFans
/-
C87, C88 for the refinement by edge length: bounds that are proportional to the shapes of the input.
-/
namespace Verif
set_option linter.unusedSectionVars false
variable {E D : Type} [NormedAddCommGroup E] [InnerProductSpace ℝ E] {inp out m : Mesh E D} {lib : QELib} {cosn : Nat → ℝ}

theorem fatTri_of {q : ℝ} {t : Tri} (h : ∀ e ∈ t.darts, q * sqd (m.place e.1) (m.place e.2) ≤ m.areaOf t) :
    FatTri q (m.place t.1) (m.place t.2.1) (m.place t.2.2) := by
  simp only [sqd_eq] at h
  exact ⟨h (t.1, t.2.1) (by simp [Tri.darts]), h (t.2.1, t.2.2) (by simp [Tri.darts]), h (t.2.2, t.1) (by simp [Tri.darts])⟩

theorem FatTri.darts {k : ℝ} {t : Tri} (h : FatTri k (m.place t.1) (m.place t.2.1) (m.place t.2.2)) :
    ∀ e ∈ t.darts, k * dist (m.place e.1) (m.place e.2) ^ 2 ≤ m.areaOf t := by
  intro e he
  simp only [Tri.darts, List.mem_cons, List.not_mem_nil, or_false] at he
  rcases he with rfl | rfl | rfl
  · exact h.1
  · exact h.2.1
  · exact h.2.2

theorem ShapeAt.fat {q L : ℝ} (hq : 0 ≤ q) (hL : 0 < L) {j : ℕ} {a b c : E} (h : ShapeAt q L j a b c) : FatTri (q / 600) a b c := by
  have two : ∀ {p x y : E}, TwoLong q L j p x y → FatTri (q / 600) p x y := by
    intro p x y H
    obtain ⟨h0, h1, h2, h3⟩ := H.sides hL
    have key : ∀ s, 0 ≤ s → s ≤ 17 / 2 * medZ L p x y → q / 600 * s ^ 2 ≤ triArea p x y := by
      intro s hs0 hs1
      have k1 : s ^ 2 ≤ (17 / 2 * medZ L p x y) ^ 2 := by gcongr
      have k2 := mul_le_mul_of_nonneg_left k1 hq
      have k3 := H.area
      have k4 : 0 ≤ q * medZ L p x y ^ 2 := by positivity
      nlinarith
    exact ⟨key _ dist_nonneg h2, key _ dist_nonneg h1, key _ dist_nonneg (by rw [dist_comm]; exact h3)⟩
  rcases h with ⟨h, -⟩ | (h | h | h) | ⟨-, h, -⟩ | ⟨-, h⟩
  · exact h.mono (by linarith)
  · exact two h
  · exact (two h).rot.rot
  · exact (two h).rot
  · exact h.mono (by linarith)
  · exact h

/-- one level -/
theorem shape_step {q L : ℝ} (hq : 0 ≤ q) (hL : 0 < L) {l : List Edge} {f f' : Filt} (hv : m.Valid)
    (hsel : m.EdgeSelOK (l.map some)) (hne : l ≠ []) (hex : ∀ e, e ∈ l ↔ e ∈ m.edges ∧ m.TooLong dist L e)
    (h : edgeUpdate .linear lib cosn (f.setEdges (l.map some)) m = (.ok out, f')) {t : Tri} (ht : t ∈ m.tris) {d : Tri}
    (hd : d ∈ t.children (m.listPoint (l.map some))) :
    (∀ j, ShapeAt q L j (m.place t.1) (m.place t.2.1) (m.place t.2.2) →
      ∃ j', ShapeAt q L j' (out.place d.1) (out.place d.2.1) (out.place d.2.2) ∧ j ≤ j' ∧
        ((∀ e ∈ t.darts, (m.listPoint (l.map some) e).isSome) ∨ (∀ e ∈ t.darts, m.listPoint (l.map some) e = none) ∨
          (j = 0 ∨ 2 ^ j * q ≤ 6) ∧ j + 1 ≤ j')) ∧
    ((d = t ∧ out.areaOf d = m.areaOf t ∧ ∀ e ∈ d.darts, dist (out.place e.1) (out.place e.2) = dist (m.place e.1) (m.place e.2)) ∨
      ∃ e ∈ d.darts, L / 2 < dist (out.place e.1) (out.place e.2)) := by
  have S : SplitAtMid m out (m.listPoint (l.map some)) := linear_edge_split hv (f := f.setEdges (l.map some)) hsel h
  have hk : ∀ e ∈ t.darts, dist (out.place e.1) (out.place e.2) = dist (m.place e.1) (m.place e.2) := by
    intro e he
    rw [S.kept t ht _ (Tri.dart_fst he), S.kept t ht _ (Tri.dart_snd he)]
  have hs : ∀ e ∈ t.darts, (m.listPoint (l.map some) e).isSome = true ↔ L < dist (out.place e.1) (out.place e.2) := by
    intro e he
    rw [hk e he]
    exact length_split hv hne hex (hv.isEdge_of_dart (mem_dartsOf.2 ⟨t, ht, he⟩))
  constructor
  · intro j H
    refine shape_child hq hL (S.mid t ht) hs ?_ hd
    rwa [S.kept t ht t.1 (by simp [Tri.verts]), S.kept t ht t.2.1 (by simp [Tri.verts]), S.kept t ht t.2.2 (by simp [Tri.verts])]
  · rcases split_side_child (S.mid t ht) hd with h1 | ⟨e, he, e', he', h1, h2⟩
    · left
      rw [children_none _ _ h1, List.mem_singleton] at hd
      subst hd
      exact ⟨rfl, S.areaOf_parent ht, hk⟩
    · right
      refine ⟨e', he', ?_⟩
      rw [h2]
      have := (hs e he).1 h1
      linarith

/-- C87, the edge filter with the length criterion, a bound that is proportional to `q`: the shapes become worse by a fixed factor
at most, whatever they are and however small the maximum is.  (For thin triangles this is much more than `q ^ 5`.) -/
theorem C87_shapes_edge_proportional (hv : inp.Valid) {L q : ℝ} (hL : 0 < L) (hq : 0 ≤ q) (hf : inp.FatBy q) {n : Nat}
    {c c' : Cond Filt (Option Edge)}
    (h : condGenerate lib (condEdgeUpd .linear lib cosn) (some (lengthCompute dist L)) n c inp = some (.ok out, c')) :
    out.FatBy (q / 600) := by
  have key := condLength_induct_exact (sch := .linear) hv (by simp) (by simp)
    (fun m => ∀ t ∈ m.tris, ∃ j, ShapeAt q L j (m.place t.1) (m.place t.2.1) (m.place t.2.2)) ?_ ?_ h
  · intro t ht
    obtain ⟨j, hj⟩ := key t ht
    exact (hj.fat hq hL).darts
  · obtain ⟨h3, h4⟩ := mesh_start (lib := lib) hv hf
    exact fun t ht => ⟨0, Or.inl ⟨fatTri_of (h4 t ht), rfl⟩⟩
  · rintro m out l f f' hi - hne hex hrun H d hd
    rw [(linear_edge_split hi.needs.valid (f := f.setEdges (l.map some)) hi.selOK hrun).tris] at hd
    obtain ⟨t, ht, hd⟩ := List.mem_flatMap.1 hd
    obtain ⟨j, hj⟩ := H t ht
    obtain ⟨j', hj', -⟩ := (shape_step hq hL hi.needs.valid hi.selOK hne hex hrun ht hd).1 j hj
    exact ⟨j', hj'⟩

/-- C87, the sizes, proportional to `q`: the area of an output triangle is at least `q / 2400 * L ^ 2`, unless it is a triangle of
the input; so there are at most as many triangles as the total area divided by this makes. -/
theorem C87_sizes_edge_proportional (hv : inp.Valid) {L q a : ℝ} (hL : 0 < L) (hq : 0 ≤ q) (hf : inp.FatBy q)
    (ha : ∀ t ∈ inp.tris, a ≤ inp.areaOf t) {n : Nat} {c c' : Cond Filt (Option Edge)}
    (h : condGenerate lib (condEdgeUpd .linear lib cosn) (some (lengthCompute dist L)) n c inp = some (.ok out, c')) :
    (∀ t ∈ out.tris, (t ∈ inp.tris ∧ out.areaOf t = inp.areaOf t) ∨ q / 2400 * L ^ 2 ≤ out.areaOf t) ∧
    out.cells.length * min (q / 2400 * L ^ 2) a ≤ inp.totalArea := by
  have h1 := C87_shapes_edge_proportional hv hL hq hf h
  have key := condLength_induct_exact (sch := .linear) hv (by simp) (by simp)
    (fun m => ∀ t ∈ m.tris, (t ∈ inp.tris ∧ m.areaOf t = inp.areaOf t) ∨
      ∃ e ∈ t.darts, L / 2 < dist (m.place e.1) (m.place e.2)) ?_ ?_ h
  · have h2 : ∀ t ∈ out.tris, (t ∈ inp.tris ∧ out.areaOf t = inp.areaOf t) ∨ q / 2400 * L ^ 2 ≤ out.areaOf t := by
      intro t ht
      refine (key t ht).imp_right ?_
      rintro ⟨e, he, h2⟩
      refine le_trans ?_ (h1 t ht e he)
      have h3 : (L / 2) ^ 2 ≤ dist (out.place e.1) (out.place e.2) ^ 2 := by gcongr
      have := mul_le_mul_of_nonneg_left h3 (show 0 ≤ q / 600 by positivity)
      linarith
    refine ⟨h2, ?_⟩
    rcases C47_length_safe (lib := lib) (sch := .linear) cosn hv (by simp) (by simp) n dist L c with h3 | ⟨o, c2, h3, h4, -⟩
    · rw [h3] at h; cases h
    · rw [h3] at h
      cases h
      rw [← (C21_linear_same_surface_conditional_edge hv h3).2]
      refine count_areas h4 fun t ht => ?_
      rcases h2 t ht with ⟨h5, h6⟩ | h5
      · rw [h6]; exact (min_le_right _ _).trans (ha t h5)
      · exact (min_le_left _ _).trans h5
  · intro t ht
    left
    rw [copyGeometry_tris lib hv] at ht
    refine ⟨ht, ?_⟩
    unfold Mesh.areaOf
    rw [place_copyGeometry hv]
  · rintro m out l f f' hi - hne hex hrun H d hd
    rw [(linear_edge_split hi.needs.valid (f := f.setEdges (l.map some)) hi.selOK hrun).tris] at hd
    obtain ⟨t, ht, hd⟩ := List.mem_flatMap.1 hd
    rcases (shape_step (q := q) hq hL hi.needs.valid hi.selOK hne hex hrun ht hd).2 with ⟨rfl, h2, h3⟩ | h2
    · refine (H d ht).imp (fun h4 => ⟨h4.1, h2.trans h4.2⟩) ?_
      rintro ⟨e, he, h4⟩
      exact ⟨e, he, by rw [h3 e he]; exact h4⟩
    · exact Or.inr h2

/-- C87 in terms of angles, for the edge filter: when the sines of the angles of the input are at least `σ`, those of the output
are at least `σ ^ 2 / 600`. -/
theorem C87_angles_edge_square (hv : inp.Valid) {L σ : ℝ} (hL : 0 < L) (hσ : 0 < σ) (hσ1 : σ ≤ 1) (hf : inp.AnglesBy σ) {n : Nat}
    {c c' : Cond Filt (Option Edge)}
    (h : condGenerate lib (condEdgeUpd .linear lib cosn) (some (lengthCompute dist L)) n c inp = some (.ok out, c')) :
    out.AnglesBy (σ ^ 2 / 600) := by
  have h1 := C87_shapes_edge_proportional hv hL (by positivity) (hf.fat hσ) h
  have h2 := h1.angles (by
    have : σ ^ 2 ≤ 1 := pow_le_one₀ hσ.le hσ1
    linarith)
  have e : 2 * (σ ^ 2 / 2 / 600) = σ ^ 2 / 600 := by ring
  rwa [e] at h2

/-- C88, the edge filter with the length criterion, proportional: the number of triangles at a point of the output is at most `13 / q`
times the number at that point in the input, or times 6 if that is more. -/
theorem C88_no_fans_edge_proportional (hv : inp.Valid) {L q : ℝ} (hL : 0 < L) (hq : 0 < q) (hq1 : q ≤ 1) (hf : inp.FatBy q) {n : Nat}
    {c c' : Cond Filt (Option Edge)}
    (h : condGenerate lib (condEdgeUpd .linear lib cosn) (some (lengthCompute dist L)) n c inp = some (.ok out, c')) (v : PId) :
    out.valence v * q ≤ 13 * (max (inp.valence v) 6 : ℕ) := by
  obtain ⟨K, h1, h2⟩ := exists_levels (x := q / 13) (by positivity) (by linarith)
  have key := condLength_induct_exact (sch := .linear) hv (by simp) (by simp)
    (fun m => FanInv (fun m t j => ShapeAt q L j (m.place t.1) (m.place t.2.1) (m.place t.2.2)) K inp.valence m) ?_ ?_ h
  · have := real_of_levels (key.valence_le v) (show 0 < q / 13 by positivity) h2
    linarith
  · obtain ⟨h3, h4⟩ := mesh_start (lib := lib) hv hf
    rw [← h3]
    exact fanInv_start fun t ht => Or.inl ⟨fatTri_of (h4 t ht), rfl⟩
  · rintro m out l f f' hi - hne hex hrun H
    have hn : EdgeScheme.linear.toScheme.Needs m := ⟨hi.needs.valid, by simp [EdgeScheme.toScheme], by simp [EdgeScheme.toScheme]⟩
    refine fanInv_step (edgeUpdate_result hn (f := f.setEdges (l.map some)) hi.selOK hrun) hi.needs.valid (fun t ht d hd j hj => ?_) H
    obtain ⟨j', h3, h4, h5⟩ := (shape_step hq.le hL hi.needs.valid hi.selOK hne hex hrun ht hd).1 j hj
    refine ⟨j', h3, h4, h5.imp_right (Or.imp_right fun h6 => ⟨h1 j ?_, h6.2⟩)⟩
    have h7 : 2 ^ j * q ≤ 6 := by
      rcases h6.1 with rfl | h7
      · rw [pow_zero]; linarith
      · exact h7
    rw [pow_succ]
    linarith

/-- the three triangles of `rowP` and any maximum length below 1 -/
example (c : Cond Filt (Option Edge)) {L : ℝ} (hL : 0 < L) (hL1 : L ≤ 1) : ∃ n out c',
    condGenerate someLib (condEdgeUpd .linear someLib realCos) (some (lengthCompute dist L)) n c rowP = some (.ok out, c') ∧
    out.FatBy (1 / 9600) ∧ (∀ v, out.valence v ≤ 1248) ∧ out.cells.length * L ^ 2 ≤ 38400 * rowP.totalArea := by
  obtain ⟨n, out, c', h⟩ := C33_length_returns rowP_ok.1 hL someLib realCos c
  refine ⟨n, out, c', h n le_rfl, ?_, fun v => ?_, ?_⟩
  · have := C87_shapes_edge_proportional rowP_ok.1 hL (by norm_num) rowP_fat (h n le_rfl)
    norm_num at this
    exact this
  · have h1 := C88_no_fans_edge_proportional rowP_ok.1 hL (by norm_num) (by norm_num) rowP_fat (h n le_rfl) v
    have h2 : rowP.valence v ≤ 6 := List.countP_le_length.trans (by rw [rowP_ok.2.2.2]; decide)
    have h3 : ((max (rowP.valence v) 6 : ℕ) : ℝ) ≤ 6 := by exact_mod_cast max_le h2 le_rfl
    have h4 : (out.valence v : ℝ) ≤ 1248 := by linarith
    exact_mod_cast h4
  · obtain ⟨a1, a2, a3⟩ := rowP_area
    have h1 := (C87_sizes_edge_proportional rowP_ok.1 hL (by norm_num) rowP_fat (a := 6) (fun t ht => by
      rw [rowP_ok.2.2.2] at ht
      simp only [row, List.mem_cons, List.not_mem_nil, or_false] at ht
      rcases ht with rfl | rfl | rfl <;> simp only [a1, a2, a3] <;> norm_num) (h n le_rfl)).2
    rw [min_eq_left (by nlinarith)] at h1
    linarith

/-- in terms of angles -/
example (c : Cond Filt (Option Edge)) {L : ℝ} (hL : 0 < L) : ∃ n out c',
    condGenerate someLib (condEdgeUpd .linear someLib realCos) (some (lengthCompute dist L)) n c rowP = some (.ok out, c') ∧
    out.AnglesBy ((1 / 8) ^ 2 / 600) := by
  obtain ⟨n, out, c', h⟩ := C33_length_returns rowP_ok.1 hL someLib realCos c
  have hf := rowP_fat.angles (by norm_num)
  norm_num at hf
  exact ⟨n, out, c', h n le_rfl, C87_angles_edge_square rowP_ok.1 hL (by norm_num) (by norm_num) hf (h n le_rfl)⟩

end Verif
