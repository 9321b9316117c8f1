import Verif.Properties.Rounding
/-
Lemmas for C95: two runs that differ in the positions of the input only, side by side.
-/
namespace Verif
set_option linter.unusedSectionVars false
variable {V D : Type} [NormedAddCommGroup V] [NormedSpace ℝ V]
variable {δ : ℝ} {lib : QELib} {cosn : Nat → ℝ} {inp inp' out : Mesh V D} {f f' : Filt}

/-- exact arithmetic is a rounded arithmetic without errors -/
theorem rounded_none (B : ℝ) : Rounded 0 0 B (fun p : V => p) where
  eps := le_rfl
  eta := le_rfl
  zero := rfl
  add p q _ _ := by simp
  smul k p _ _ := by simp

/-- two meshes that differ only in the positions, as one mesh with two positions per point -/
def Mesh.paired (a b : Mesh V D) : Mesh (V × V) D where
  points := List.zipWith (fun x y => (x.1, (x.2, y.2))) a.points b.points
  cells := a.cells
  cellData := a.cellData
  hasEdgeCells := a.hasEdgeCells
  edges := a.edges
  left := a.left
  ring := a.ring
  pointData := a.pointData

theorem zip_keys {a b : List (Nat × V)} (h : b.map (fun k => (k.1, ())) = a.map fun k => (k.1, ())) :
    (List.zipWith (fun x y => (x.1, (x.2, y.2))) a b).map (fun k => (k.1, k.2.1)) = a ∧
    (List.zipWith (fun x y => (x.1, (x.2, y.2))) a b).map (fun k => (k.1, k.2.2)) = b := by
  induction a generalizing b with
  | nil => cases b with
    | nil => exact ⟨rfl, rfl⟩
    | cons y b => cases h
  | cons x a ih => cases b with
    | nil => cases h
    | cons y b =>
      simp only [List.map_cons, List.cons.injEq, Prod.mk.injEq, and_true] at h
      obtain ⟨h1, h2⟩ := ih h.2
      simp only [List.zipWith_cons_cons, List.map_cons, h1, h2, true_and, List.cons.injEq, and_true]
      exact Prod.ext h.1.symm rfl

theorem paired_fst (h : inp'.shape = inp.shape) : (inp.paired inp').mapPoints Prod.fst = inp := by
  have hp : inp'.points.map (fun k => (k.1, ())) = inp.points.map fun k => (k.1, ()) := congrArg Mesh.points h
  have := (zip_keys hp).1
  unfold Mesh.paired Mesh.mapPoints
  cases inp
  simp only [Mesh.mk.injEq, and_true]
  exact this

theorem paired_snd (h : inp'.shape = inp.shape) : (inp.paired inp').mapPoints Prod.snd = inp' := by
  have hp : inp'.points.map (fun k => (k.1, ())) = inp.points.map fun k => (k.1, ()) := congrArg Mesh.points h
  have := (zip_keys hp).2
  have h2 := congrArg Mesh.cells h
  have h3 := congrArg Mesh.cellData h
  have h4 := congrArg Mesh.hasEdgeCells h
  have h5 := congrArg Mesh.edges h
  have h6 := congrArg Mesh.left h
  have h7 := congrArg Mesh.ring h
  have h8 := congrArg Mesh.pointData h
  unfold Mesh.paired Mesh.mapPoints
  unfold Mesh.shape Mesh.mapPoints at *
  cases inp'
  simp only [Mesh.mk.injEq]
  exact ⟨this, h2.symm, h3.symm, h4.symm, h5.symm, h6.symm, h7.symm, h8.symm⟩

/-- how far the points are apart -/
theorem paired_gap (h : inp'.shape = inp.shape) (hb : ∀ v p q, inp.pos v = some p → inp'.pos v = some q → ‖p - q‖ ≤ δ) :
    ∀ v p, ((inp.paired inp').mapPoints (blend (1 : ℝ) (-1))).pos v = some p → ‖p‖ ≤ δ := by
  intro v p hp
  have hp' : ((inp.paired inp').points.find? v).map (blend (1 : ℝ) (-1)) = some p := by rw [← AMap.find?_map]; exact hp
  obtain ⟨x, hx, rfl⟩ := Option.map_eq_some_iff.1 hp'
  have e1 : ((inp.paired inp').mapPoints Prod.fst).pos v = some x.1 := by
    unfold Mesh.pos Mesh.mapPoints; rw [AMap.find?_map, hx]; rfl
  have e2 : ((inp.paired inp').mapPoints Prod.snd).pos v = some x.2 := by
    unfold Mesh.pos Mesh.mapPoints; rw [AMap.find?_map, hx]; rfl
  rw [paired_fst h] at e1
  rw [paired_snd h] at e2
  have := hb v _ _ e1 e2
  unfold blend
  rwa [one_smul, neg_one_smul, ← sub_eq_add_neg]

/-- what a filter needs does not depend on the positions -/
theorem needs_unmap {P P' : Type} {φ : P → P'} {m : Mesh P D} {sch : Scheme} (h : sch.Needs (m.mapPoints φ)) : sch.Needs m where
  valid := {
    points_dense := by
      have := h.valid.points_dense
      rw [mapPoints_length] at this
      rw [← this]
      simp [Mesh.mapPoints, Function.comp_def]
    cells_sorted := h.valid.cells_sorted
    cells_tri := by
      intro c hc
      have := h.valid.cells_tri c hc
      rwa [mapPoints_length] at this
    good := h.valid.good
    left_iff := h.valid.left_iff
    edges_iff := h.valid.edges_iff
    edges_once := h.valid.edges_once
    has_edge_cells := h.valid.has_edge_cells }
  ring hs := (h.ring hs).congr rfl rfl rfl
  noIsolated hs v hv := h.noIsolated hs v (by rw [mapPoints_length]; exact hv)

theorem paired_needs {sch : Scheme} (hs : inp'.shape = inp.shape) (h : sch.Needs inp) :
    sch.Needs ((inp.paired inp').mapPoints (blend (1 : ℝ) (-1))) := by
  rw [← paired_fst hs] at h
  exact (needs_unmap h).mapPoints

theorem paired_length (hs : inp'.shape = inp.shape) :
    ((inp.paired inp').mapPoints (blend (1 : ℝ) (-1))).points.length = inp.points.length := by
  rw [mapPoints_length, ← mapPoints_length (φ := Prod.fst), paired_fst hs]

theorem valence_le_tris {P D : Type} (m : Mesh P D) (v : PId) : m.valence v ≤ m.tris.length := List.countP_le_length

/-- no position becomes larger than the largest one, or 3/2 of it for Butterfly: cell filters -/
theorem size_cell {sch : Scheme} (hc : sch = .loop → ∀ n, -1 ≤ cosn n ∧ cosn n ≤ 1) (hM : 0 ≤ δ)
    (hn : sch.Needs inp) (hsel : inp.SelOK f.cells)
    (hmax : sch = .sqrt3 → inp.points.length + (inp.selected f.cells).length ≤ idMax)
    (hsb : sch = .loop → inp.SimpleBoundary) (hb : ∀ v p, inp.pos v = some p → ‖p‖ ≤ δ)
    (h : cellUpdate sch lib cosn f inp = (.ok out, f')) : ∀ v p, out.pos v = some p → ‖p‖ ≤ sch.growth * δ := by
  set d := inp.tris.length
  have h1 := (C64_positions_cell (posHom_one (P := V) (V := V)) sch lib cosn f (inp.both fun p => p)).1
  have h2 := (C64_positions_cell (posHom_two (P := V) (V := V)) sch lib cosn f (inp.both fun p => p)).1
  rw [both_fst, h] at h1
  rcases hr : cellUpdate sch lib cosn f (inp.both fun p => p) with ⟨e | o, g⟩
  · rw [hr] at h1; cases h1
  · rw [hr] at h1 h2
    have hlen : (inp.both fun p => p).points.length = inp.points.length := mapPoints_length
    have hid : inp.mapPoints (fun p => p) = inp := by unfold Mesh.mapPoints; simp
    rw [both_snd, hid, h] at h2
    obtain rfl := Except.ok.inj h1
    have h2' := Except.ok.inj h2
    intro v p hp
    have := ((rounded_none (V := V) _).stable_level hc hM 0 (d := d) (B := _) le_rfl).cell (inp := inp.both fun p => p) (f := f)
      hn.mapPoints hsel (by rw [hlen]; exact hmax) hsb (fun _ v _ => valence_le_tris inp v) hr (both_start le_rfl hb) v _
      (both_pos hp (h2' ▸ hp))
    simpa [Scheme.sizeAfter] using this.size

theorem size_edge {sch : EdgeScheme} (hc : sch.toScheme = .loop → ∀ n, -1 ≤ cosn n ∧ cosn n ≤ 1) (hM : 0 ≤ δ)
    (hn : sch.toScheme.Needs inp) (hsel : inp.EdgeSelOK f.edgeSel) (hb : ∀ v p, inp.pos v = some p → ‖p‖ ≤ δ)
    (h : edgeUpdate sch lib cosn f inp = (.ok out, f')) : ∀ v p, out.pos v = some p → ‖p‖ ≤ sch.toScheme.growth * δ := by
  have h1 := C64_positions_edge (posHom_one (P := V) (V := V)) sch lib cosn f (inp.both fun p => p)
  have h2 := C64_positions_edge (posHom_two (P := V) (V := V)) sch lib cosn f (inp.both fun p => p)
  rw [both_fst, h] at h1
  rcases hr : edgeUpdate sch lib cosn f (inp.both fun p => p) with ⟨e | o, g⟩
  · rw [hr] at h1; cases h1
  · rw [hr] at h1 h2
    have hid : inp.mapPoints (fun p => p) = inp := by unfold Mesh.mapPoints; simp
    rw [both_snd, hid, h] at h2
    obtain rfl := Except.ok.inj h1
    have h2' := Except.ok.inj h2
    intro v p hp
    have := ((rounded_none (V := V) _).stable_level hc hM 0 (d := 0) (B := _) le_rfl).edge (inp := inp.both fun p => p) (f := f)
      hn.mapPoints hsel hr (both_start le_rfl hb) v _ (both_pos hp (h2' ▸ hp))
    simpa [Scheme.sizeAfter] using this.size

theorem roomFor_exists {P D : Type} (m : Mesh P D) (sel : List CId) (L : Nat) : ∃ d, m.RoomFor sel L d := by
  refine ⟨2 ^ L * (m.tris.length + 3), Or.inr ⟨m.tris.length + 3, Nat.le_add_left _ _, Nat.le_mul_of_pos_left _ (by decide), fun v _ => ?_⟩⟩
  exact le_trans (valence_le_tris m v) (Nat.le_add_right _ _)

theorem size_levels {sch : Scheme} (hc : sch = .loop → ∀ n, -1 ≤ cosn n ∧ cosn n ≤ 1) (hM : 0 ≤ δ)
    (hl : sch = .loop ∨ sch = .butterfly → lib.Lawful) {L : Nat} (hn : sch.Needs inp) {sel sel' : List CId}
    (hsel : inp.SelOK sel) (hid : sch.IdsLeft L inp sel) (hsb : sch = .loop → inp.SimpleBoundary)
    (hb : ∀ v p, inp.pos v = some p → ‖p‖ ≤ δ) (h : manyLevels sch lib cosn L (inp, sel) = .ok (out, sel')) :
    ∀ v p, out.pos v = some p → ‖p‖ ≤ sch.growth ^ L * δ := by
  obtain ⟨d, hd⟩ := roomFor_exists inp sel L
  have h1 := (posHom_one (P := V) (V := V)).manyLevels (sch := sch) (lib := lib) (cosn := cosn) L (inp.both fun p => p) sel
  have h2 := (posHom_two (P := V) (V := V)).manyLevels (sch := sch) (lib := lib) (cosn := cosn) L (inp.both fun p => p) sel
  rw [both_fst, h] at h1
  have hlen : (inp.both fun p => p).points.length = inp.points.length := mapPoints_length
  have hi : inp.mapPoints (fun p => p) = inp := by unfold Mesh.mapPoints; simp
  rw [both_snd, hi, h] at h2
  rcases hm : manyLevels sch lib cosn L (inp.both fun p => p, sel) with e | ⟨o, s⟩
  · rw [hm] at h1; cases h1
  · rw [hm] at h1 h2
    obtain ⟨rfl, -⟩ := Prod.mk.inj (Except.ok.inj h1)
    have h2' := (Prod.mk.inj (Except.ok.inj h2)).1
    intro v p hp
    have := (rounded_none (V := V) _).manyLevels_fits (d := d) (M := δ) hc hM hl L 0 (m := inp.both fun p => p) hn.mapPoints hsel
      (by unfold Scheme.IdsLeft at *; rw [hlen]; exact hid) hsb
      (fun _ => by unfold Mesh.RoomFor at *; rw [hlen]; exact hd) hm le_rfl (both_start le_rfl hb) v _
      (both_pos hp (h2' ▸ hp))
    simpa [Scheme.sizeAfter] using this.size

end Verif
