import Verif.Proofs.Sliver
import Verif.Properties.CondSqrt3
/-
C73: SquareThree does not split edges at the rim of the part that it refines, so that the triangles there degenerate.
-/
namespace Verif
set_option linter.unusedSectionVars false
variable {E D : Type} [NormedAddCommGroup E] [InnerProductSpace ℝ E] {lib : QELib} {cosn : Nat → ℝ} {inp out : Mesh E D}

/-- C73. Iterative SquareThree, on the whole mesh or on a list of cells.  Let `a b c` be a refined triangle whose edge `a b` has
no refined triangle on its other side: an edge of the boundary of the mesh, or between a listed cell and one that is not
listed.  After `n` levels there is a triangle over the same edge `a b`, neither end of which has moved, and its third corner
has come down along the median to `3 ^ -n` of the way: the area is divided by `3 ^ n` while a side stays as long as it was. -/
theorem C73_rim_triangles {f : Iter} (hv : inp.Valid) (hsel : inp.SelOK f.cells)
    (hid : Scheme.sqrt3.IdsLeft (max 1 f.levels) inp f.cells) (h : (iterUpdate .sqrt3 lib cosn f inp).1 = .ok out) {a b c : PId}
    (hT : HasTri (inp.selected f.cells) a b c) (hb : (b, a) ∉ dartsOf (inp.selected f.cells)) {p q r : E}
    (ha : inp.pos a = some p) (hq : inp.pos b = some q) (hr : inp.pos c = some r) :
    ∃ v, HasTri out.tris a b v ∧ out.pos a = some p ∧ out.pos b = some q ∧
      out.pos v = some (lowered p q r (max 1 f.levels)) ∧
      triArea p q (lowered p q r (max 1 f.levels)) * 3 ^ max 1 f.levels = triArea p q r := by
  have hn : Scheme.sqrt3.Needs inp := ⟨hv, by simp, by simp⟩
  obtain ⟨m, sel, h1, h2, v, h3, -, h5, h6, h7⟩ := manyLevels_count (lib := lib) (cosn := cosn) (sch := .sqrt3) (by simp)
    (fun n m sel => ∃ v, HasTri (m.selected sel) a b v ∧ (b, a) ∉ dartsOf (m.selected sel) ∧ m.place a = p ∧ m.place b = q ∧
      m.place v = lowered p q r n)
    (by
      rintro n m o sel f' k1 k2 - k4 k5 ⟨v, k6, k7, rfl, rfl, k8⟩
      obtain ⟨v', j1, j2, j3, j4, j5⟩ := sqrt3_rim_step (f := Filt.new.setCells sel) k1.valid k2 (k4 rfl) k5 k6 k7
      exact ⟨v', j1, j2, j3, j4, j5.trans (by rw [k8, mean3_lowered])⟩)
    (max 1 f.levels) 0 hn hsel hid ⟨c, hT, hb, place_of_pos ha, place_of_pos hq, by rw [lowered_zero, place_of_pos hr]⟩
  rw [iterUpdate_eq, ← levelsOf_eq, h1] at h
  cases h
  rw [Nat.zero_add] at h7
  have hT' := h3.mono (h2.valid.selected_subset _)
  obtain ⟨t, ht, hti⟩ := hasTri_iff.1 hT'
  have hlt : ∀ w, w = a ∨ w = b ∨ w = v → w < m.points.length := by
    intro w hw
    refine h2.valid.verts_lt ht ?_
    obtain ⟨x, y, z⟩ := t
    simp only [Tri.Is, Prod.mk.injEq] at hti
    rcases hti with ⟨rfl, rfl, rfl⟩ | ⟨rfl, rfl, rfl⟩ | ⟨rfl, rfl, rfl⟩ <;> simp only [Tri.verts, List.mem_cons, List.not_mem_nil, or_false] <;> tauto
  refine ⟨v, hT', ?_, ?_, ?_, area_lowered _ _ _ _⟩
  · rw [← h5]; exact h2.valid.pos_place (hlt a (by simp))
  · rw [← h6]; exact h2.valid.pos_place (hlt b (by simp))
  · rw [← h7]; exact h2.valid.pos_place (hlt v (by simp))

/-- C73: what this means for the triangle: the distance of the third corner from the middle of the opposite side is divided by
`3 ^ n`. -/
theorem C73_height (p q r : E) (n : Nat) :
    dist (lowered p q r n) ((1 / 2 : ℝ) • (p + q)) * 3 ^ n = dist r ((1 / 2 : ℝ) • (p + q)) := dist_lowered p q r n

/-- C73: the conditional filter with SquareThree and the area criterion, which ends by C70, ends with such triangles.  At an
edge `a b` of the boundary the output has a triangle whose third corner came down `j` times, where `j` is the least number
with an area of at most `A`. -/
theorem C73_conditional_rim (hv : inp.Valid) {A : ℝ} {n : Nat} (hmax : inp.points.length + 4 ^ n * inp.cells.length ≤ idMax)
    {c0 c' : Cond Filt CId}
    (h : condGenerate lib (condCellUpd .sqrt3 lib cosn) (some (areaCompute heronArea A)) n c0 inp = some (.ok out, c'))
    {a b c : PId} (hT : HasTri inp.tris a b c) (hb : (b, a) ∉ dartsOf inp.tris) {p q r : E}
    (ha : inp.pos a = some p) (hq : inp.pos b = some q) (hr : inp.pos c = some r) :
    ∃ v j, HasTri out.tris a b v ∧ out.pos a = some p ∧ out.pos b = some q ∧ out.pos v = some (lowered p q r j) ∧
      triArea p q r ≤ 3 ^ j * A ∧ ∀ i < j, 3 ^ i * A < triArea p q r := by
  have key := condArea_induct_exact (lib := lib) (cosn := cosn) (sch := .sqrt3) hv (by simp) (by simp) (fun _ => hmax)
    (area := heronArea) (A := A)
    (I := fun m => m.Valid ∧ (b, a) ∉ dartsOf m.tris ∧ ∃ v j, HasTri m.tris a b v ∧ m.pos a = some p ∧ m.pos b = some q ∧
      m.pos v = some (lowered p q r j) ∧ ∀ i < j, 3 ^ i * A < triArea p q r) ?_ ?_ h
  · obtain ⟨hvo, -, v, j, h1, h2, h3, h4, h5⟩ := key
    refine ⟨v, j, h1, h2, h3, h4, ?_, h5⟩
    obtain ⟨t, ht, hti⟩ := hasTri_iff.1 h1
    obtain ⟨k, hk⟩ := hvo.mem_tris.1 ht
    have h11 := (C30_area_postcondition h).2.2.1 k
    rw [tooLarge_iff hvo hk, not_lt] at h11
    have : out.areaOf t = triArea p q (lowered p q r j) := by
      obtain ⟨x, y, z⟩ := t
      simp only [Tri.Is, Prod.mk.injEq] at hti
      unfold Mesh.areaOf
      rcases hti with ⟨rfl, rfl, rfl⟩ | ⟨rfl, rfl, rfl⟩ | ⟨rfl, rfl, rfl⟩ <;>
        simp only [place_of_pos h2, place_of_pos h3, place_of_pos h4]
      · exact triArea_rotate _ _ _
      · rw [triArea_rotate, triArea_rotate]
    rw [← area_lowered p q r j, mul_comm]
    rw [this] at h11
    exact mul_le_mul_of_nonneg_left h11 (by positivity)
  · refine ⟨copyGeometry_valid lib hv, ?_, c, 0, ?_, ?_, ?_, ?_, by simp⟩
    · rw [copyGeometry_tris lib hv]; exact hb
    · rw [copyGeometry_tris lib hv]; exact hT
    · simpa only [Mesh.pos, copyGeometry_points lib hv] using ha
    · simpa only [Mesh.pos, copyGeometry_points lib hv] using hq
    · rw [lowered_zero]; simpa only [Mesh.pos, copyGeometry_points lib hv] using hr
  · rintro m o sel f f' hm ho hsel hne hex hmx hrun ⟨-, hbm, v, j, k1, k2, k3, k4, k5⟩
    have hvm := hm.valid
    have hmx := hmx rfl
    have hb' : (b, a) ∉ dartsOf o.tris := by
      have h8 := ((C18_boundary_preserved_sqrt3 hvm (f := f.setCells sel) hsel hmx hrun).1 (a, b)).2 ⟨k1.dart, hbm⟩
      exact h8.2
    have hpa := C06_original_points_kept (by decide) hvm.points_dense hrun _ _ k2
    have hpb := C06_original_points_kept (by decide) hvm.points_dense hrun _ _ k3
    refine ⟨ho.valid, hb', ?_⟩
    obtain ⟨t, ht, hti⟩ := hasTri_iff.1 k1
    by_cases hs : t ∈ m.selected sel
    · obtain ⟨v', j1, -, j3, j4, j5⟩ := sqrt3_rim_step (f := f.setCells sel) hvm hsel hmx hrun (hasTri_iff.2 ⟨t, hs, hti⟩)
        (fun hd => hbm (by
          obtain ⟨d, hd, he⟩ := mem_dartsOf.1 hd
          exact mem_dartsOf.2 ⟨d, hvm.selected_subset _ _ hd, he⟩))
      have j1 := j1.mono (ho.valid.selected_subset _)
      obtain ⟨t', ht', hti'⟩ := hasTri_iff.1 j1
      have hlt : v' < o.points.length := by
        refine ho.valid.verts_lt ht' ?_
        obtain ⟨x, y, z⟩ := t'
        simp only [Tri.Is, Prod.mk.injEq] at hti'
        rcases hti' with ⟨rfl, rfl, rfl⟩ | ⟨rfl, rfl, rfl⟩ | ⟨rfl, rfl, rfl⟩ <;> simp [Tri.verts]
      refine ⟨v', j + 1, j1, hpa, hpb, ?_, ?_⟩
      · rw [ho.valid.pos_place hlt, j5, place_of_pos k2, place_of_pos k3, place_of_pos k4, mean3_lowered]
      · obtain ⟨k, hk, hkt⟩ := (hvm.mem_selected hne).1 hs
        have h11 := (hex k).1 hk
        rw [tooLarge_iff hvm hkt] at h11
        have : m.areaOf t = triArea p q (lowered p q r j) := by
          obtain ⟨x, y, z⟩ := t
          simp only [Tri.Is, Prod.mk.injEq] at hti
          unfold Mesh.areaOf
          rcases hti with ⟨rfl, rfl, rfl⟩ | ⟨rfl, rfl, rfl⟩ | ⟨rfl, rfl, rfl⟩ <;>
            simp only [place_of_pos k2, place_of_pos k3, place_of_pos k4]
          · exact triArea_rotate _ _ _
          · rw [triArea_rotate, triArea_rotate]
        intro i hi
        rcases Nat.lt_succ_iff_lt_or_eq.1 hi with hi | rfl
        · exact k5 i hi
        · rw [← area_lowered p q r i, mul_comm]
          rw [this] at h11
          exact mul_lt_mul_of_pos_right h11 (by positivity)
    · have := sqrt3_kept hvm (f := f.setCells sel) hsel hmx hrun ht hs
      exact ⟨v, j, hasTri_iff.2 ⟨t, this, hti⟩, hpa, hpb, C06_original_points_kept (by decide) hvm.points_dense hrun _ _ k4, k5⟩

theorem wingsP_pos (v : PId) : wingsP.pos v = ([!₂[0, 0], !₂[1, 0], !₂[0, 10], !₂[10, -1]] : List R2)[v]? := by
  rw [← AMap.find?_dense, ← mapIdx_eq_dense]; rfl

/-- the whole mesh, three levels: over the edge from (1, 0) to (0, 10) of the boundary there is a triangle whose third corner is
within a ninth of the middle of the edge, which is (1/2, 5) -/
example : ∃ out v, (iterUpdate .sqrt3 someLib realCos ⟨[], 3, []⟩ wingsP).1 = .ok out ∧ HasTri out.tris 1 2 v ∧
    out.pos 1 = some !₂[1, 0] ∧ out.pos 2 = some !₂[0, 10] ∧
    out.pos v = some (lowered !₂[1, 0] !₂[0, 10] !₂[0, 0] 3) := by
  have hid : Scheme.sqrt3.IdsLeft 3 wingsP [] := fun _ => by decide
  obtain ⟨m, sel, h1, -⟩ := manyLevels_ok (lib := someLib) realCos (sch := .sqrt3) (by simp) 3 ⟨wingsP_ok.1, by simp, by simp⟩
    (selOK_nil _) hid
  have hrun : (iterUpdate .sqrt3 someLib realCos ⟨[], 3, []⟩ wingsP).1 = .ok m := by
    rw [iterUpdate_eq]
    show Except.map Prod.fst (manyLevels .sqrt3 someLib realCos 3 (wingsP, [])) = _
    rw [h1]; rfl
  have hall : wingsP.selected [] = [(0, 1, 2), (1, 0, 3)] := by rw [← wingsP_ok.2.2.2]; simp [Mesh.selected]
  obtain ⟨v, g1, g2, g3, g4, -⟩ := C73_rim_triangles (f := ⟨[], 3, []⟩) wingsP_ok.1 (selOK_nil _) hid hrun (a := 1) (b := 2) (c := 0)
    (by rw [hall]; unfold HasTri; decide) (by rw [hall]; decide) (wingsP_pos 1) (wingsP_pos 2) (wingsP_pos 0)
  exact ⟨m, v, hrun, g1, g2, g3, g4⟩

/-- one of the two triangles, three levels: the same over the edge between the two -/
example (out : Mesh R2 Nat) (h : (iterUpdate .sqrt3 someLib realCos ⟨[0], 3, []⟩ wingsP).1 = .ok out) :
    ∃ v, HasTri out.tris 0 1 v ∧ out.pos v = some (lowered !₂[0, 0] !₂[1, 0] !₂[0, 10] 3) := by
  have hall : wingsP.selected [0] = [(0, 1, 2)] := by decide
  obtain ⟨v, g1, -, -, g4, -⟩ := C73_rim_triangles (f := ⟨[0], 3, []⟩) wingsP_ok.1 (by unfold Mesh.SelOK; decide) (fun _ => by decide)
    h (a := 0) (b := 1) (c := 2) (by rw [hall]; unfold HasTri; decide) (by rw [hall]; decide) (wingsP_pos 0) (wingsP_pos 1)
    (wingsP_pos 2)
  exact ⟨v, g1, g4⟩

/-- the triangle over the edge from (1, 0) to (0, 10) has an area of 5; a maximum of 1/2 makes three iterations of it -/
example (out : Mesh R2 Nat) (n : Nat) (hn : 4 + 4 ^ n * 2 ≤ idMax) (c0 c' : Cond Filt CId)
    (h : condGenerate someLib (condCellUpd .sqrt3 someLib realCos) (some (areaCompute heronArea (1 / 2))) n c0 wingsP =
      some (.ok out, c')) :
    ∃ v, HasTri out.tris 1 2 v ∧ out.pos v = some (lowered !₂[1, 0] !₂[0, 10] !₂[0, 0] 3) := by
  have harea : triArea (!₂[1, 0] : R2) !₂[0, 10] !₂[0, 0] = 5 := by
    rw [triArea_R2]
    norm_num
  obtain ⟨v, j, g1, -, -, g4, g5, g6⟩ := C73_conditional_rim wingsP_ok.1 (n := n) hn h (a := 1) (b := 2) (c := 0)
    (by rw [wingsP_ok.2.2.2]; unfold HasTri; decide) (by rw [wingsP_ok.2.2.2]; decide) (wingsP_pos 1) (wingsP_pos 2) (wingsP_pos 0)
  have hj : j = 3 := by
    rw [harea] at g5 g6
    refine le_antisymm (not_lt.1 fun hj => ?_) (not_lt.1 fun hj => ?_)
    · have := g6 3 hj
      norm_num at this
    · have : j ≤ 2 := by omega
      have h3 : (3 : ℝ) ^ j ≤ 3 ^ 2 := pow_le_pow_right₀ (by norm_num) this
      linarith
  subst hj
  exact ⟨v, g1, g4⟩

end Verif
