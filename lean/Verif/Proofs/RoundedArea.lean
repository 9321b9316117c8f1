import Verif.Proofs.RoundedLength
/-
Areas of triangles when the Linear cell filter splits the large triangles of a mesh, in machine arithmetic.
-/
namespace Verif
set_option linter.unusedSectionVars false
open scoped InnerProductSpace

section vectors
variable {V : Type} [NormedAddCommGroup V] [InnerProductSpace ℝ V]

theorem gram_norm (u v : V) :
    ‖u‖ * Real.sqrt (‖u‖ ^ 2 * ‖v‖ ^ 2 - ⟪u, v⟫_ℝ ^ 2) = ‖‖u‖ ^ 2 • v - ⟪u, v⟫_ℝ • u‖ := by
  have h : ‖‖u‖ ^ 2 • v - ⟪u, v⟫_ℝ • u‖ ^ 2 = ‖u‖ ^ 2 * (‖u‖ ^ 2 * ‖v‖ ^ 2 - ⟪u, v⟫_ℝ ^ 2) := by
    rw [norm_sub_sq_real, norm_smul, norm_smul, real_inner_smul_left, real_inner_smul_right, real_inner_comm, mul_pow, mul_pow,
      Real.norm_eq_abs, Real.norm_eq_abs, sq_abs, sq_abs]
    ring
  rw [← Real.sqrt_sq (norm_nonneg (‖u‖ ^ 2 • v - ⟪u, v⟫_ℝ • u)), h, Real.sqrt_mul (by positivity), Real.sqrt_sq (norm_nonneg _)]

theorem gram_add_le (u v w : V) : Real.sqrt (‖u‖ ^ 2 * ‖v‖ ^ 2 - ⟪u, v⟫_ℝ ^ 2) ≤
    Real.sqrt (‖u‖ ^ 2 * ‖w‖ ^ 2 - ⟪u, w⟫_ℝ ^ 2) + ‖u‖ * ‖v - w‖ := by
  by_cases hu : u = 0
  · subst hu; simp
  have hu' : 0 < ‖u‖ := norm_pos_iff.2 hu
  have h1 : Real.sqrt (‖u‖ ^ 2 * ‖v - w‖ ^ 2 - ⟪u, v - w⟫_ℝ ^ 2) ≤ ‖u‖ * ‖v - w‖ := by
    rw [Real.sqrt_le_left (by positivity)]
    nlinarith [sq_nonneg ⟪u, v - w⟫_ℝ]
  have h2 : ‖u‖ * Real.sqrt (‖u‖ ^ 2 * ‖v‖ ^ 2 - ⟪u, v⟫_ℝ ^ 2) ≤
      ‖u‖ * (Real.sqrt (‖u‖ ^ 2 * ‖w‖ ^ 2 - ⟪u, w⟫_ℝ ^ 2) + Real.sqrt (‖u‖ ^ 2 * ‖v - w‖ ^ 2 - ⟪u, v - w⟫_ℝ ^ 2)) := by
    rw [mul_add, gram_norm, gram_norm, gram_norm]
    have e : ‖u‖ ^ 2 • v - ⟪u, v⟫_ℝ • u = (‖u‖ ^ 2 • w - ⟪u, w⟫_ℝ • u) + (‖u‖ ^ 2 • (v - w) - ⟪u, v - w⟫_ℝ • u) := by
      rw [inner_sub_right]; module
    rw [e]
    exact norm_add_le _ _
  linarith [le_of_mul_le_mul_left h2 hu']

/-- moving one corner -/
theorem area_move (p q r r' : V) : triArea p q r ≤ triArea p q r' + 1 / 2 * (dist p q * dist r r') := by
  have h := gram_add_le (q - p) (r - p) (r' - p)
  rw [sub_sub_sub_cancel_right] at h
  unfold triArea
  rw [dist_comm p q, dist_eq_norm, dist_eq_norm]
  linarith

/-- moving all corners a little, in a ball -/
theorem area_moved {p q r p' q' r' : V} {R κ : ℝ} (hp : ‖p‖ ≤ R) (hq : ‖q‖ ≤ R) (hq' : ‖q'‖ ≤ R) (hr' : ‖r'‖ ≤ R)
    (h1 : dist p p' ≤ κ) (h2 : dist q q' ≤ κ) (h3 : dist r r' ≤ κ) : triArea p q r ≤ triArea p' q' r' + 3 * (κ * R) := by
  have hR : 0 ≤ R := (norm_nonneg _).trans hp
  have hκ : 0 ≤ κ := dist_nonneg.trans h1
  have k : ∀ {x y : V}, ‖x‖ ≤ R → ‖y‖ ≤ R → dist x y ≤ 2 * R := fun hx hy => (dist_le_norm_add_norm _ _).trans (by linarith)
  have m : ∀ {x y z w : V}, ‖x‖ ≤ R → ‖y‖ ≤ R → dist z w ≤ κ → dist x y * dist z w ≤ 2 * R * κ := fun hx hy hz =>
    mul_le_mul (k hx hy) hz dist_nonneg (by linarith)
  have e1 := area_move p q r r'
  have e2 := area_move r' p q q'
  have e3 := area_move q' r' p p'
  have a1 := triArea_rotate r' p q
  have a2 := triArea_rotate r' p q'
  have a3 := triArea_rotate q' r' p
  have a4 := triArea_rotate q' r' p'
  have a5 := triArea_rotate r' p' q'
  have a6 := triArea_rotate p' q' r'
  have a7 := triArea_rotate p q r'
  have a8 := triArea_rotate q r' p
  have b1 := m (z := r) (w := r') hp hq h3
  have b2 := m (z := q) (w := q') hr' hp h2
  have b3 := m (z := p) (w := p') hq' hr' h1
  linarith

/-- each piece of a triangle with a split edge has a fixed share, at most one half -/
theorem children_shares {μ : Edge → Option PId} {t : Tri} {g : PId → V} (h : AtMid μ g t) (hs : ∃ e ∈ t.darts, (μ e).isSome) :
    ∃ w : List ℝ, (∀ x ∈ w, x ≤ 1 / 2) ∧
    (t.children μ).map (fun d => triArea (g d.1) (g d.2.1) (g d.2.2)) =
      w.map fun x => x * triArea (g t.1) (g t.2.1) (g t.2.2) := by
  obtain ⟨a, b, c⟩ := t
  have h0 := h (a, b) (by simp [Tri.darts])
  have h1 := h (b, c) (by simp [Tri.darts])
  have h2 := h (c, a) (by simp [Tri.darts])
  simp only [Tri.children]
  rcases e0 : μ (a, b) with _ | m0 <;> rcases e1 : μ (b, c) with _ | m1 <;> rcases e2 : μ (c, a) with _ | m2 <;>
    simp only [List.map_cons, List.map_nil]
  · simp [Tri.darts, e0, e1, e2] at hs
  · refine ⟨[1/2, 1/2], by norm_num, ?_⟩
    have g2 := h2 _ e2
    simp only [List.map_cons, List.map_nil]
    rw [triArea_comb (p := g a) (q := g b) (r := g c) (p' := g m2) (q' := g a) (r' := g b) 0 (-1/2) 1 (-1/2)
        (by rw [g2]; module) (by rw [g2]; module),
      triArea_comb (p := g a) (q := g b) (r := g c) (p' := g m2) (q' := g b) (r' := g c) 1 (-1/2) 0 (1/2)
        (by rw [g2]; module) (by rw [g2]; module)]
    norm_num
  · refine ⟨[1/2, 1/2], by norm_num, ?_⟩
    have g1 := h1 _ e1
    simp only [List.map_cons, List.map_nil]
    rw [triArea_comb (p := g a) (q := g b) (r := g c) (p' := g m1) (q' := g c) (r' := g a) (-1/2) (1/2) (-1/2) (-1/2)
        (by rw [g1]; module) (by rw [g1]; module),
      triArea_comb (p := g a) (q := g b) (r := g c) (p' := g m1) (q' := g a) (r' := g b) (-1/2) (-1/2) (1/2) (-1/2)
        (by rw [g1]; module) (by rw [g1]; module)]
    norm_num
  · refine ⟨[1/2, 1/4, 1/4], by norm_num, ?_⟩
    have g1 := h1 _ e1
    have g2 := h2 _ e2
    simp only [List.map_cons, List.map_nil]
    rw [triArea_comb (p := g a) (q := g b) (r := g c) (p' := g a) (q' := g b) (r' := g m1) 1 0 (1/2) (1/2)
        (by module) (by rw [g1]; module),
      triArea_comb (p := g a) (q := g b) (r := g c) (p' := g a) (q' := g m1) (r' := g m2) (1/2) (1/2) 0 (1/2)
        (by rw [g1]; module) (by rw [g2]; module),
      triArea_comb (p := g a) (q := g b) (r := g c) (p' := g m1) (q' := g c) (r' := g m2) (-1/2) (1/2) (-1/2) 0
        (by rw [g1]; module) (by rw [g1, g2]; module)]
    norm_num
  · refine ⟨[1/2, 1/2], by norm_num, ?_⟩
    have g0 := h0 _ e0
    simp only [List.map_cons, List.map_nil]
    rw [triArea_comb (p := g a) (q := g b) (r := g c) (p' := g m0) (q' := g b) (r' := g c) (1/2) 0 (-1/2) 1
        (by rw [g0]; module) (by rw [g0]; module),
      triArea_comb (p := g a) (q := g b) (r := g c) (p' := g m0) (q' := g c) (r' := g a) (-1/2) 1 (-1/2) 0
        (by rw [g0]; module) (by rw [g0]; module)]
    norm_num
  · refine ⟨[1/2, 1/4, 1/4], by norm_num, ?_⟩
    have g0 := h0 _ e0
    have g2 := h2 _ e2
    simp only [List.map_cons, List.map_nil]
    rw [triArea_comb (p := g a) (q := g b) (r := g c) (p' := g b) (q' := g c) (r' := g m0) (-1) 1 (-1/2) 0
        (by module) (by rw [g0]; module),
      triArea_comb (p := g a) (q := g b) (r := g c) (p' := g c) (q' := g m2) (r' := g m0) 0 (-1/2) (1/2) (-1)
        (by rw [g2]; module) (by rw [g0]; module),
      triArea_comb (p := g a) (q := g b) (r := g c) (p' := g m2) (q' := g a) (r' := g m0) 0 (-1/2) (1/2) (-1/2)
        (by rw [g2]; module) (by rw [g0, g2]; module)]
    norm_num
  · refine ⟨[1/2, 1/4, 1/4], by norm_num, ?_⟩
    have g0 := h0 _ e0
    have g1 := h1 _ e1
    simp only [List.map_cons, List.map_nil]
    rw [triArea_comb (p := g a) (q := g b) (r := g c) (p' := g c) (q' := g a) (r' := g m0) 0 (-1) (1/2) (-1)
        (by module) (by rw [g0]; module),
      triArea_comb (p := g a) (q := g b) (r := g c) (p' := g c) (q' := g m0) (r' := g m1) (1/2) (-1) (1/2) (-1/2)
        (by rw [g0]; module) (by rw [g1]; module),
      triArea_comb (p := g a) (q := g b) (r := g c) (p' := g m0) (q' := g b) (r' := g m1) (1/2) 0 0 (1/2)
        (by rw [g0]; module) (by rw [g0, g1]; module)]
    norm_num
  · refine ⟨[1/4, 1/4, 1/4, 1/4], by norm_num, ?_⟩
    have g0 := h0 _ e0
    have g1 := h1 _ e1
    have g2 := h2 _ e2
    simp only [List.map_cons, List.map_nil]
    rw [triArea_comb (p := g a) (q := g b) (r := g c) (p' := g a) (q' := g m0) (r' := g m2) (1/2) 0 0 (1/2)
        (by rw [g0]; module) (by rw [g2]; module),
      triArea_comb (p := g a) (q := g b) (r := g c) (p' := g m0) (q' := g b) (r' := g m1) (1/2) 0 0 (1/2)
        (by rw [g0]; module) (by rw [g0, g1]; module),
      triArea_comb (p := g a) (q := g b) (r := g c) (p' := g m1) (q' := g c) (r' := g m2) (-1/2) (1/2) (-1/2) 0
        (by rw [g1]; module) (by rw [g1, g2]; module),
      triArea_comb (p := g a) (q := g b) (r := g c) (p' := g m0) (q' := g m1) (r' := g m2) 0 (1/2) (-1/2) (1/2)
        (by rw [g0, g1]; module) (by rw [g0, g2]; module)]
    norm_num

theorem child_area_half {μ : Edge → Option PId} {t d : Tri} {g : PId → V} (h : AtMid μ g t) (hd : d ∈ t.children μ)
    (hs : ∃ e ∈ t.darts, (μ e).isSome) : triArea (g d.1) (g d.2.1) (g d.2.2) ≤ 1 / 2 * triArea (g t.1) (g t.2.1) (g t.2.2) := by
  obtain ⟨w, h1, h2⟩ := children_shares h hs
  have : triArea (g d.1) (g d.2.1) (g d.2.2) ∈ (t.children μ).map (fun d => triArea (g d.1) (g d.2.1) (g d.2.2)) :=
    List.mem_map.2 ⟨d, hd, rfl⟩
  rw [h2] at this
  obtain ⟨x, hx, he⟩ := List.mem_map.1 this
  rw [← he]
  exact mul_le_mul_of_nonneg_right (h1 x hx) (triArea_nonneg _ _ _)

end vectors

section mesh
variable {P V D : Type} [Zero P] [Add P] [SMul ℝ P] [NormedAddCommGroup V] [InnerProductSpace ℝ V] {val : P → V}
  {lib : QELib} {cosn : Nat → ℝ} {f f' : Filt} {inp out : Mesh P D} {area : P → P → P → ℝ} {A S B R κ α : ℝ}

/-- the exact area of a triangle -/
noncomputable def Mesh.exactArea (val : P → V) (m : Mesh P D) (t : Tri) : ℝ :=
  triArea (m.spot val t.1) (m.spot val t.2.1) (m.spot val t.2.2)

/-- the computed area of a triangle -/
def Mesh.areaBy (area : P → P → P → ℝ) (m : Mesh P D) (t : Tri) : ℝ := area (m.coord t.1) (m.coord t.2.1) (m.coord t.2.2)

theorem chosen_split {sel : List CId} {t : Tri} (ht : t ∈ inp.selected sel) :
    ∀ e ∈ t.darts, (inp.edgePoint sel e).isSome := fun _ he =>
  (edgePoint_isSome _ _ _).2 (Or.inl (mem_dartsOf.2 ⟨t, ht, he⟩))

theorem tooLarge_by (hv : inp.Valid) {t : Tri} {k : CId} (hk : (k, some t.cell) ∈ inp.cells) :
    inp.TooLarge area A k ↔ A < inp.areaBy area t := by
  have ht : t ∈ inp.tris := hv.mem_tris.2 ⟨k, hk⟩
  have hp : ∀ v ∈ t.verts, inp.pos v = some (inp.coord v) := fun v h => hv.pos_eq (hv.verts_lt ht h)
  have e1 := hp t.1 (by simp [Tri.verts])
  have e2 := hp t.2.1 (by simp [Tri.verts])
  have e3 := hp t.2.2 (by simp [Tri.verts])
  constructor
  · rintro ⟨t', pa, pb, pc, h1, h2, h3, h4, h5⟩
    have : t' = t := by
      have h6 := (hv.triAt_iff (t := t')).2 h1
      rw [hv.triAt_iff.2 hk] at h6
      exact (Option.some.inj h6).symm
    subst this
    rw [Mesh.areaBy, inp.coord_of_pos h2, inp.coord_of_pos h3, inp.coord_of_pos h4]
    exact h5
  · exact fun h => ⟨t, _, _, _, hk, e1, e2, e3, h⟩

/-- what the Linear cell filter does to places: the points of the input stay, the others are near to midpoints -/
theorem linear_near (hmid : ∀ p q, ‖val p‖ ≤ R → ‖val q‖ ≤ R → NearMid κ (val p) (val q) (val (midPoint ℝ p q)))
    (hv : inp.Valid) (hsel : inp.SelOK f.cells) (hR : ∀ v p, inp.pos v = some p → ‖val p‖ ≤ R)
    (h : cellUpdate .linear lib cosn f inp = (.ok out, f')) :
    (∀ v, v < inp.points.length → out.pos v = some (inp.coord v) ∧ out.spot val v = inp.spot val v) ∧
    ∀ e m, inp.edgePoint f.cells e = some m → NearMid κ (inp.spot val e.1) (inp.spot val e.2) (out.spot val m) := by
  have hn : Scheme.linear.Needs inp := ⟨hv, by simp, by simp⟩
  have hk := C06_original_points_kept (by decide) hv.points_dense h
  have hb : ∀ {v}, v < inp.points.length → ‖inp.spot val v‖ ≤ R := fun {v} hlt => hR v _ (hv.pos_eq hlt)
  refine ⟨fun v hlt => ⟨hk v _ (hv.pos_eq hlt), spot_of_pos (hk v _ (hv.pos_eq hlt))⟩, fun e m hm => ?_⟩
  obtain ⟨e', p, g1, g2, g3, g4⟩ := cellUpdate_edgeValue (by decide) hn hsel h hm
  have hlt := hv.isEdge_lt g2
  rw [spot_of_pos g4]
  have hp : midPoint ℝ (inp.coord e'.1) (inp.coord e'.2) = p := by
    have := linearPoint_ok (K := ℝ) hv g2
    exact Except.ok.inj (this.symm.trans g3)
  have := hmid _ _ (hb hlt.1) (hb hlt.2)
  rw [hp] at this
  rcases g1 with rfl | rfl
  · exact this
  · exact this.symm

/-- places stay in a ball a little larger -/
theorem rounded_ball_cell (H : MeasuredArea val area R κ α) (hv : inp.Valid) (hsel : inp.SelOK f.cells)
    (hκ : 0 ≤ κ) (hB : B ≤ R) (hR : ∀ v p, inp.pos v = some p → ‖val p‖ ≤ B)
    (h : cellUpdate .linear lib cosn f inp = (.ok out, f')) :
    ∀ v p, out.pos v = some p → ‖val p‖ ≤ B + κ := by
  have hn : Scheme.linear.Needs inp := ⟨hv, by simp, by simp⟩
  obtain ⟨n1, n2⟩ := linear_near H.mid hv hsel (fun v p h => (hR v p h).trans hB) h
  obtain ⟨T, T'⟩ := cellUpdate_result (by decide) hn hsel h
  intro v p hp
  have old : ∀ {w}, w < inp.points.length → ‖inp.spot val w‖ ≤ B := fun {w} hw => hR w _ (hv.pos_eq hw)
  rw [← spot_of_pos (val := val) hp]
  by_cases hlt : v < inp.points.length
  · rw [(n1 v hlt).2]
    linarith [old hlt]
  · have hlen : v < ((List.range inp.points.length).map (schemeBase .linear cosn inp f) ++
        (edgeList (inp.selected f.cells)).map (valueOf (schemePoint .linear ℝ inp))).length := by
      have := T.points
      unfold Mesh.pos at hp
      rw [this, AMap.find?_dense] at hp
      exact (List.getElem?_eq_some_iff.1 hp).1
    obtain ⟨e, he, hm⟩ := T' v (Nat.le_of_not_lt hlt) hlen
    have hl := hv.isEdge_lt (hv.isEdge_of_dart he)
    have h1 := n2 e v hm
    unfold NearMid at h1
    have h2 := norm_add_le (out.spot val v - (1 / 2 : ℝ) • (inp.spot val e.1 + inp.spot val e.2))
      ((1 / 2 : ℝ) • (inp.spot val e.1 + inp.spot val e.2))
    rw [sub_add_cancel] at h2
    have h3 : ‖(1 / 2 : ℝ) • (inp.spot val e.1 + inp.spot val e.2)‖ ≤ B := by
      rw [norm_smul]
      have h4 := norm_add_le (inp.spot val e.1) (inp.spot val e.2)
      have e2 : ‖(1 / 2 : ℝ)‖ = 1 / 2 := by norm_num
      rw [e2]
      linarith [old hl.1, old hl.2]
    linarith

/-- one iteration of the conditional filter -/
theorem rounded_area_iteration (H : MeasuredArea val area R κ α) (hv : inp.Valid) {sel : List CId} (hne : sel ≠ [])
    (hκ : 0 ≤ κ) (hα : 0 ≤ α) (hA : 3 * α + 6 * (κ * R) ≤ A) (hS : 2 * (A - α) ≤ S)
    (hs : ∀ k, k ∈ sel ↔ inp.TooLarge area A k) (hB : B + κ ≤ R)
    (hR : ∀ v p, inp.pos v = some p → ‖val p‖ ≤ B)
    (hM : ∀ t ∈ inp.tris, inp.exactArea val t ≤ S ∨ inp.areaBy area t ≤ A)
    (h : cellUpdate .linear lib cosn (f.setCells sel) inp = (.ok out, f')) :
    ∀ t ∈ out.tris, out.exactArea val t ≤ S / 2 ∨ out.areaBy area t ≤ A := by
  have hsel : inp.SelOK (f.setCells sel).cells := fun k hk => TooLarge.mem ((hs k).1 hk)
  have hn : Scheme.linear.Needs inp := ⟨hv, by simp, by simp⟩
  have hR' : ∀ v p, inp.pos v = some p → ‖val p‖ ≤ R := fun v p h => (hR v p h).trans (by linarith)
  obtain ⟨n1, n2⟩ := linear_near H.mid hv hsel hR' h
  have T := (cellUpdate_result (by decide) hn hsel h).1
  have hball := rounded_ball_cell H hv hsel hκ (by linarith) hR h
  -- the same step in exact arithmetic
  have hvE : (inp.mapPoints val).Valid := hv.mapPoints
  have hselE : (inp.mapPoints val).SelOK (f.setCells sel).cells := hsel
  obtain ⟨outE, fE, hE, -⟩ := C01_face_split_completes (K := ℝ) (f := f.setCells sel) (sch := .linear) (by decide) lib cosn
    (inp := inp.mapPoints val) ⟨hvE, by simp, by simp⟩ hselE
  have hedge : (inp.mapPoints val).edgePoint (f.setCells sel).cells = inp.edgePoint sel := by
    unfold Mesh.edgePoint
    rw [mapPoints_length]
    rfl
  have SE := linear_split hvE hselE hE
  rw [hedge] at SE
  have placeE : ∀ {v}, v < inp.points.length → (inp.mapPoints val).place v = inp.spot val v := by
    intro v hlt
    refine place_of_pos ?_
    unfold Mesh.pos Mesh.mapPoints
    simp only [AMap.find?_map]
    have : inp.points.find? v = some (inp.coord v) := hv.pos_eq hlt
    rw [this]
    rfl
  intro d hd
  rw [T.tris] at hd
  obtain ⟨t, ht, hd⟩ := List.mem_flatMap.1 hd
  change d ∈ t.children (inp.edgePoint sel) at hd
  have htE : t ∈ (inp.mapPoints val).tris := ht
  have hlt : ∀ v ∈ t.verts, v < inp.points.length := fun v hvt => hv.verts_lt ht hvt
  have hpar : triArea (outE.place t.1) (outE.place t.2.1) (outE.place t.2.2) = inp.exactArea val t := by
    unfold Mesh.exactArea
    rw [SE.kept t htE t.1 (by simp [Tri.verts]), SE.kept t htE t.2.1 (by simp [Tri.verts]),
      SE.kept t htE t.2.2 (by simp [Tri.verts]), placeE (hlt _ (by simp [Tri.verts])), placeE (hlt _ (by simp [Tri.verts])),
      placeE (hlt _ (by simp [Tri.verts]))]
  -- a triangle without split edges stays
  by_cases hsp : ∃ e ∈ t.darts, ((inp.edgePoint sel) e).isSome
  swap
  · have hnone : ∀ e ∈ t.darts, inp.edgePoint sel e = none := by
      intro e he
      by_contra hc
      exact hsp ⟨e, he, Option.isSome_iff_ne_none.2 hc⟩
    rw [children_none _ t hnone, List.mem_singleton] at hd
    rw [hd]
    have e : ∀ v ∈ t.verts, out.coord v = inp.coord v := fun v hvt => out.coord_of_pos (n1 v (hlt v hvt)).1
    refine Or.inr ?_
    have : out.areaBy area t = inp.areaBy area t := by
      unfold Mesh.areaBy
      rw [e t.1 (by simp [Tri.verts]), e t.2.1 (by simp [Tri.verts]), e t.2.2 (by simp [Tri.verts])]
    rw [this]
    obtain ⟨k, hk⟩ := hv.mem_tris.1 ht
    refine not_lt.1 fun hb => ?_
    have h1 : t ∈ inp.selected sel := (hv.mem_selected hne).2 ⟨k, (hs k).2 ((tooLarge_by hv hk).2 hb), hk⟩
    have h2 := chosen_split h1 (t.1, t.2.1) (by simp [Tri.darts])
    rw [hnone _ (by simp [Tri.darts])] at h2
    cases h2
  -- the corners of a child are near to those of the exact child
  have near : ∀ v ∈ d.verts, dist (out.spot val v) (outE.place v) ≤ κ ∧ ‖out.spot val v‖ ≤ R ∧ ‖outE.place v‖ ≤ R := by
    intro v hvd
    have key : dist (out.spot val v) (outE.place v) ≤ κ ∧ ‖outE.place v‖ ≤ B := by
      rcases children_verts d hd v hvd with hvt | ⟨e, he, hm⟩
      · rw [(n1 v (hlt v hvt)).2, SE.kept t htE v hvt, placeE (hlt v hvt), dist_self]
        exact ⟨hκ, hR v _ (hv.pos_eq (hlt v hvt))⟩
      · have hl := hv.isEdge_lt (hv.isEdge_of_dart (mem_dartsOf.2 ⟨t, ht, he⟩))
        have hmv := SE.mid t htE e he v hm
        have ht1 : e.1 ∈ t.verts ∧ e.2 ∈ t.verts := by
          obtain ⟨a, b, c⟩ := t
          simp only [Tri.darts, List.mem_cons, List.not_mem_nil, or_false] at he
          rcases he with rfl | rfl | rfl <;> simp [Tri.verts]
        rw [SE.kept t htE _ ht1.1, SE.kept t htE _ ht1.2, placeE hl.1, placeE hl.2] at hmv
        rw [hmv, ← smul_add]
        refine ⟨by rw [dist_eq_norm]; exact n2 e v hm, ?_⟩
        rw [norm_smul]
        have h4 := norm_add_le (inp.spot val e.1) (inp.spot val e.2)
        have e2 : ‖(1 / 2 : ℝ)‖ = 1 / 2 := by norm_num
        rw [e2]
        have h5 : ‖inp.spot val e.1‖ ≤ B := hR _ _ (hv.pos_eq hl.1)
        have h6 : ‖inp.spot val e.2‖ ≤ B := hR _ _ (hv.pos_eq hl.2)
        linarith
    refine ⟨key.1, ?_, by linarith [key.2]⟩
    have h7 := norm_add_le (out.spot val v - outE.place v) (outE.place v)
    rw [sub_add_cancel, ← dist_eq_norm] at h7
    linarith [key.1, key.2]
  have m1 := near d.1 (by simp [Tri.verts])
  have m2 := near d.2.1 (by simp [Tri.verts])
  have m3 := near d.2.2 (by simp [Tri.verts])
  have hmove : out.exactArea val d ≤ triArea (outE.place d.1) (outE.place d.2.1) (outE.place d.2.2) + 3 * (κ * R) :=
    area_moved m1.2.1 m2.2.1 m2.2.2 m3.2.2 m1.1 m2.1 m3.1
  have hκR : 0 ≤ κ * R := mul_nonneg hκ ((norm_nonneg _).trans m1.2.1)
  refine Or.inl ?_
  obtain ⟨k, hk⟩ := hv.mem_tris.1 ht
  by_cases hb : A < inp.areaBy area t
  · have h1 : t ∈ inp.selected sel := (hv.mem_selected hne).2 ⟨k, (hs k).2 ((tooLarge_by hv hk).2 hb), hk⟩
    have h2 := child_area_quarter (SE.mid t htE) (chosen_split h1) hd
    rw [hpar] at h2
    rcases hM t ht with h3 | h3
    · linarith
    · exact absurd hb (not_lt.2 h3)
  · have h2 := child_area_half (SE.mid t htE) hd hsp
    rw [hpar] at h2
    have hbd : ∀ v ∈ t.verts, ‖val (inp.coord v)‖ ≤ R := fun v hvt => hR' v _ (hv.pos_eq (hlt v hvt))
    have h3 := abs_le.1 (H.near _ _ _ (hbd t.1 (by simp [Tri.verts])) (hbd t.2.1 (by simp [Tri.verts]))
      (hbd t.2.2 (by simp [Tri.verts])))
    have h4 : inp.exactArea val t ≤ A + α := by
      have h5 := not_lt.1 hb
      unfold Mesh.areaBy at h5
      have h6 := h3.1
      change -α ≤ area (inp.coord t.1) (inp.coord t.2.1) (inp.coord t.2.2) - inp.exactArea val t at h6
      linarith
    linarith

/-- a triangle with three places, in any of its three listings -/
def Mesh.TriAtPlaces (m : Mesh P D) (x y z : P) (t : Tri) : Prop :=
  (m.pos t.1 = some x ∧ m.pos t.2.1 = some y ∧ m.pos t.2.2 = some z) ∨
  (m.pos t.1 = some y ∧ m.pos t.2.1 = some z ∧ m.pos t.2.2 = some x) ∨
  (m.pos t.1 = some z ∧ m.pos t.2.1 = some x ∧ m.pos t.2.2 = some y)

theorem Mesh.TriAtPlaces.turn {m : Mesh P D} {x y z : P} {t : Tri} (h : m.TriAtPlaces x y z t) : m.TriAtPlaces y z x t := by
  rcases h with h | h | h
  · exact Or.inr (Or.inr h)
  · exact Or.inl h
  · exact Or.inr (Or.inl h)

theorem Neighbours.symm {x y : P} (h : Neighbours x y) : Neighbours y x :=
  ⟨h.2.symm, h.1.symm⟩

/-- whatever ends the midpoints fall on, one piece has the places of the whole triangle -/
theorem whole_piece {x y z : P} {a b c : PId} {μ : Edge → Option PId} {m0 m1 m2 : PId} (h0 : μ (a, b) = some m0)
    (h1 : μ (b, c) = some m1) (h2 : μ (c, a) = some m2) (ha : out.pos a = some x) (hb : out.pos b = some y)
    (hc : out.pos c = some z) (k0 : out.pos m0 = some x ∨ out.pos m0 = some y) (k1 : out.pos m1 = some y ∨ out.pos m1 = some z)
    (k2 : out.pos m2 = some z ∨ out.pos m2 = some x) : ∃ d ∈ Tri.children μ (a, b, c), out.TriAtPlaces x y z d := by
  simp only [Tri.children, h0, h1, h2, List.mem_cons, List.not_mem_nil, or_false, exists_eq_or_imp, exists_eq_left,
    Mesh.TriAtPlaces]
  rcases k0 with k0 | k0 <;> rcases k1 with k1 | k1 <;> rcases k2 with k2 | k2 <;> simp only [ha, hb, hc, k0, k1, k2] <;> simp

theorem neighbours_area_step {x y z : P} (hxy : Neighbours x y) (hyz : Neighbours y z) (hzx : Neighbours z x) (hv : inp.Valid)
    {sel : List CId} (hsel : inp.SelOK sel) {t : Tri} (ht : t ∈ inp.selected sel) (hx : inp.TriAtPlaces x y z t)
    (h : cellUpdate .linear lib cosn (f.setCells sel) inp = (.ok out, f')) : ∃ d ∈ out.tris, out.TriAtPlaces x y z d := by
  have hn : Scheme.linear.Needs inp := ⟨hv, by simp, by simp⟩
  have hk := C06_original_points_kept (by decide) hv.points_dense h
  have T := (cellUpdate_result (by decide) hn (f := f.setCells sel) hsel h).1
  have val : ∀ {a b m : PId} {p q : P}, inp.edgePoint sel (a, b) = some m → inp.pos a = some p → inp.pos b = some q →
      Neighbours p q → out.pos m = some p ∨ out.pos m = some q := by
    intro a b m p q hm ha hb hN
    obtain ⟨e', r, g1, g2, g3, g4⟩ := cellUpdate_edgeValue (by decide) hn (f := f.setCells sel) hsel h hm
    have hp : midPoint ℝ (inp.coord e'.1) (inp.coord e'.2) = r := by
      have := linearPoint_ok (K := ℝ) hv g2
      exact Except.ok.inj (this.symm.trans g3)
    rw [g4, ← hp]
    rcases g1 with rfl | rfl <;> simp only [Edge.sym, inp.coord_of_pos ha, inp.coord_of_pos hb, Option.some.injEq]
    · exact hN.1
    · exact hN.2
  have key : ∀ {x y z : P}, Neighbours x y → Neighbours y z → Neighbours z x → inp.pos t.1 = some x → inp.pos t.2.1 = some y →
      inp.pos t.2.2 = some z → ∃ d ∈ out.tris, out.TriAtPlaces x y z d := by
    intro x y z hxy hyz hzx ha hb hc
    obtain ⟨a, b, c⟩ := t
    have hs := chosen_split ht
    obtain ⟨m0, h0⟩ := Option.isSome_iff_exists.1 (hs (a, b) (by simp [Tri.darts]))
    obtain ⟨m1, h1⟩ := Option.isSome_iff_exists.1 (hs (b, c) (by simp [Tri.darts]))
    obtain ⟨m2, h2⟩ := Option.isSome_iff_exists.1 (hs (c, a) (by simp [Tri.darts]))
    obtain ⟨d, hd, hd'⟩ := whole_piece (out := out) h0 h1 h2 (hk _ _ ha) (hk _ _ hb) (hk _ _ hc) (val h0 ha hb hxy)
      (val h1 hb hc hyz) (val h2 hc ha hzx)
    refine ⟨d, ?_, hd'⟩
    rw [T.tris]
    exact List.mem_flatMap.2 ⟨_, hv.selected_subset _ _ ht, hd⟩
  rcases hx with ⟨ha, hb, hc⟩ | ⟨ha, hb, hc⟩ | ⟨ha, hb, hc⟩
  · exact key hxy hyz hzx ha hb hc
  · obtain ⟨d, hd, h⟩ := key hyz hzx hxy ha hb hc
    exact ⟨d, hd, h.turn.turn⟩
  · obtain ⟨d, hd, h⟩ := key hzx hxy hyz ha hb hc
    exact ⟨d, hd, h.turn⟩

theorem neighbours_area_loop {x y z : P} (hxy : Neighbours x y) (hyz : Neighbours y z) (hzx : Neighbours z x)
    (h1 : A < area x y z) (h2 : A < area y z x) (h3 : A < area z x y) {n : Nat} {s : Filt} {sel : List CId}
    (hI : AreaInv .linear n sel inp) (hs : ∀ k, k ∈ sel ↔ inp.TooLarge area A k)
    (hd : ∃ t ∈ inp.tris, inp.TriAtPlaces x y z t) :
    condLoop (condCellUpd .linear lib cosn) (areaCompute area A) n ⟨s, sel⟩ inp = none := by
  have hT : ∀ {m : Mesh P D} {sel : List CId}, m.Valid → (∀ k, k ∈ sel ↔ m.TooLarge area A k) →
      (∃ t ∈ m.tris, m.TriAtPlaces x y z t) → sel ≠ [] ∧ ∃ t ∈ m.selected sel, m.TriAtPlaces x y z t := by
    rintro m sel hm hs ⟨t, ht, hp⟩
    obtain ⟨k, hk⟩ := hm.mem_tris.1 ht
    have hks : k ∈ sel := by
      refine (hs k).2 ?_
      rcases hp with ⟨ha, hb, hc⟩ | ⟨ha, hb, hc⟩ | ⟨ha, hb, hc⟩
      · exact ⟨t, _, _, _, hk, ha, hb, hc, h1⟩
      · exact ⟨t, _, _, _, hk, ha, hb, hc, h2⟩
      · exact ⟨t, _, _, _, hk, ha, hb, hc, h3⟩
    have hne := List.ne_nil_of_mem hks
    exact ⟨hne, t, (hm.mem_selected hne).2 ⟨k, hks, hk⟩, hp⟩
  induction n generalizing sel inp s with
  | zero => exact condLoop_zero (hT hI.needs.valid hs hd).1
  | succ n ih =>
    obtain ⟨h0, t, ht, hp⟩ := hT hI.needs.valid hs hd
    obtain ⟨out, s', sel', h4, h5, -, h6⟩ := condArea_step (lib := lib) (cosn := cosn) (by simp) area A s hI h0
    rw [condLoop_step h0 h4 h5]
    have hm := h6.needs.valid
    obtain ⟨l', k1, -, k2⟩ := C28_area_exact area A hm.cells_sorted hm.allTriangles hm.cornersExist sel
    rw [h5] at k1
    cases k1
    exact ih h6 k2 (neighbours_area_step hxy hyz hzx hI.needs.valid hI.selOK ht hp h4)

end mesh
end Verif
