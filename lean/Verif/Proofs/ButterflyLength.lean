import Verif.Proofs.LoopLength
import Verif.Proofs.Shrink
import Verif.Proofs.Relabel
/-
Lengths of edges when the ModifiedButterfly edge filter splits the long edges of a closed mesh.
-/
namespace Verif
set_option linter.unusedSectionVars false

section vectors
variable {E : Type} [NormedAddCommGroup E] [InnerProductSpace ℝ E] {L M : ℝ} {x y z p q : E}

/-- the place `p` of the new point of the edge from `x` to `y` between the triangles with third corners `z` and `w`; `u₁` to
`u₄` are the corners over the other sides of the two triangles -/
def BfAt (x y z w u₁ u₂ u₃ u₄ p : E) : Prop :=
  p = (1 / 2 : ℝ) • x + (1 / 2 : ℝ) • y + (1 / 8 : ℝ) • z + (1 / 8 : ℝ) • w
    - (1 / 16 : ℝ) • u₁ - (1 / 16 : ℝ) • u₂ - (1 / 16 : ℝ) • u₃ - (1 / 16 : ℝ) • u₄

variable {w u₁ u₂ u₃ u₄ : E}

theorem BfAt.half (h : BfAt x y z w u₁ u₂ u₃ u₄ p) (hM : 0 ≤ M) (h0 : dist x y ≤ M) (h1 : dist z u₁ ≤ M) (h2 : dist z u₂ ≤ M)
    (h3 : dist w u₃ ≤ M) (h4 : dist w u₄ ≤ M) : dist p x ≤ 3 / 4 * M := by
  rw [dist_eq_norm] at *
  refine norm_of_weighted [(-1 / 2, x - y), (1 / 16, z - u₁), (1 / 16, z - u₂), (1 / 16, w - u₃), (1 / 16, w - u₄)] ?_
    (by unfold BfAt at h; rw [h]; simp only [List.map_cons, List.map_nil, List.sum_cons, List.sum_nil]; module)
    (by norm_num [abs_of_pos, abs_of_neg]) hM
  simp only [List.mem_cons, List.not_mem_nil, or_false]
  rintro x (rfl | rfl | rfl | rfl | rfl) <;> assumption

/-- the distance from the opposite corner; `u₁` is over the side from `x` to `z`, `u₂` over the side from `y` to `z` -/
theorem BfAt.across (h : BfAt x y z w u₁ u₂ u₃ u₄ p) (hM : 0 ≤ M) (h1 : dist x u₁ ≤ M) (h2 : dist y u₂ ≤ M)
    (h3 : dist w u₃ ≤ M) (h4 : dist w u₄ ≤ M) : dist p z ≤ 7 / 16 * ‖(x - z) + (y - z)‖ + 1 / 4 * M := by
  rw [dist_eq_norm] at *
  have : p - z = (7 / 16 : ℝ) • ((x - z) + (y - z)) +
      ((1 / 16 : ℝ) • (x - u₁) + (1 / 16 : ℝ) • (y - u₂) + (1 / 16 : ℝ) • (w - u₃) + (1 / 16 : ℝ) • (w - u₄)) := by
    unfold BfAt at h; rw [h]; module
  rw [this]
  refine (norm_add_le _ _).trans (add_le_add ?_ ?_)
  · rw [norm_smul]; norm_num
  · refine norm_of_weighted [(1 / 16, x - u₁), (1 / 16, y - u₂), (1 / 16, w - u₃), (1 / 16, w - u₄)] ?_
      (by simp only [List.map_cons, List.map_nil, List.sum_cons, List.sum_nil]; module)
      (by norm_num [abs_of_pos, abs_of_neg]) hM
    simp only [List.mem_cons, List.not_mem_nil, or_false]
    rintro x (rfl | rfl | rfl | rfl) <;> assumption

/-- the new points of two sides of a triangle: `v` is over the third side, `w` and `w'` are over the two -/
theorem BfAt.between {w' v f₁ f₂ g₁ g₂ : E} (h : BfAt x y z w v w' f₁ f₂ p) (h' : BfAt y z x w' w v g₁ g₂ q) (hM : 0 ≤ M)
    (h0 : dist x z ≤ M) (hw : dist w y ≤ M) (hw' : dist y w' ≤ M) (h1 : dist w f₁ ≤ M) (h2 : dist w f₂ ≤ M)
    (h3 : dist g₁ w' ≤ M) (h4 : dist g₂ w' ≤ M) : dist p q ≤ 3 / 4 * M := by
  rw [dist_eq_norm] at *
  refine norm_of_weighted [(3 / 8, x - z), (1 / 16, w - y), (1 / 16, y - w'), (1 / 16, w - f₁), (1 / 16, w - f₂),
    (1 / 16, g₁ - w'), (1 / 16, g₂ - w')] ?_
    (by unfold BfAt at h h'; rw [h, h']; simp only [List.map_cons, List.map_nil, List.sum_cons, List.sum_nil]; module)
    (by norm_num [abs_of_pos, abs_of_neg]) hM
  simp only [List.mem_cons, List.not_mem_nil, or_false]
  rintro x (rfl | rfl | rfl | rfl | rfl | rfl | rfl) <;> assumption

/-- the median over a long side -/
theorem median_le {s : ℝ} (hL : 0 ≤ L) (hs : 0 ≤ s) (hxy : L < dist x y) {B : ℝ} (hB : dist x z ^ 2 + dist y z ^ 2 ≤ B)
    (h : 2 * B - L ^ 2 ≤ s ^ 2) : ‖(x - z) + (y - z)‖ ≤ s := by
  have h1 := parallelogram_law_with_norm ℝ (x - z) (y - z)
  rw [sub_sub_sub_cancel_right] at h1
  rw [dist_eq_norm] at hxy
  rw [dist_eq_norm, dist_eq_norm] at hB
  have k1 : L ^ 2 ≤ ‖x - y‖ ^ 2 := pow_le_pow_left₀ hL hxy.le 2
  refine (sq_le_sq₀ (norm_nonneg _) hs).1 ?_
  nlinarith

end vectors

/-- The pieces of a triangle when the distances between its corners and the new points are measured by `ℓ`: if edges that are
not split are at most `L`, halves of edges and lines between new points at most `h`, then a piece with a longer side has one other
side of at most `h` and one of at most `L`. -/
theorem children_calm {μ : Edge → Option PId} {ℓ : PId → PId → ℝ} {L h : ℝ} (hh : h ≤ L) (hsym : ∀ x y, ℓ x y = ℓ y x) {t d : Tri}
    (hd : d ∈ t.children μ)
    (H : ∀ s ∈ [(t.1, t.2.1, t.2.2), (t.2.1, t.2.2, t.1), (t.2.2, t.1, t.2.1)],
      (μ (s.1, s.2.1) = none → ℓ s.1 s.2.1 ≤ L) ∧
      (∀ m, μ (s.1, s.2.1) = some m → ℓ s.1 m ≤ h ∧ ℓ m s.2.1 ≤ h) ∧
      (∀ m m', μ (s.1, s.2.1) = some m → μ (s.2.1, s.2.2) = some m' → ℓ m m' ≤ h)) {x y z : PId} (hx : Tri.Is d x y z)
    (hl : L < ℓ x y) : (ℓ x z ≤ h ∧ ℓ y z ≤ L) ∨ (ℓ x z ≤ L ∧ ℓ y z ≤ h) := by
  obtain ⟨a, b, c⟩ := t
  simp only [List.mem_cons, List.not_mem_nil, or_false, forall_eq_or_imp, forall_eq] at H
  obtain ⟨⟨o0, n0, m0⟩, ⟨o1, n1, m1⟩, ⟨o2, n2, m2⟩⟩ := H
  simp only [Tri.children] at hd
  rcases e0 : μ (a, b) with _ | p0 <;> rcases e1 : μ (b, c) with _ | p1 <;> rcases e2 : μ (c, a) with _ | p2 <;>
    simp only [e0, e1, e2] at hd <;>
    simp only [e0, e1, e2, forall_const, reduceCtorEq, false_imp_iff, implies_true, Option.some.injEq, forall_eq'] at o0 n0 m0 o1 n1 m1 o2 n2 m2 <;>
    simp only [List.mem_cons, List.not_mem_nil, or_false] at hd <;>
    rcases hd with rfl | rfl | rfl | rfl <;>
    simp only [Tri.Is, Prod.mk.injEq] at hx <;>
    rcases hx with ⟨rfl, rfl, rfl⟩ | ⟨rfl, rfl, rfl⟩ | ⟨rfl, rfl, rfl⟩ <;>
    grind

section mesh
variable {E D : Type} [NormedAddCommGroup E] [InnerProductSpace ℝ E] {lib : QELib} {cosn : Nat → ℝ} {f f' : Filt}
  {inp out : Mesh E D}

/-- where the ModifiedButterfly edge filter puts the new point of an edge of a closed mesh -/
theorem butterfly_bfAt (hn : EdgeScheme.butterfly.toScheme.Needs inp) (hcl : inp.Closed) (hsel : inp.EdgeSelOK f.edgeSel)
    (h : edgeUpdate .butterfly lib cosn f inp = (.ok out, f')) {a b c d u₁ u₂ u₃ u₄ m : PId} (hc : HasTri inp.tris a b c)
    (hd : HasTri inp.tris b a d) (h1 : HasTri inp.tris a c u₁) (h2 : HasTri inp.tris c b u₂) (h3 : HasTri inp.tris d a u₃)
    (h4 : HasTri inp.tris b d u₄) (hm : inp.listPoint f.edgeSel (a, b) = some m) :
    BfAt (inp.place a) (inp.place b) (inp.place c) (inp.place d) (inp.place u₁) (inp.place u₂) (inp.place u₃) (inp.place u₄)
      (out.place m) := by
  have hv := hn.valid
  have hr := hn.ring (Or.inr rfl)
  obtain ⟨e', p, g1, g2, g3, g4⟩ := edgeUpdate_edgeValue hn hsel h hm
  have he := hv.isEdge_of_dart hc.dart
  have hsym : butterflyPoint ℝ inp (a, b) = .ok p := by
    rcases g1 with rfl | rfl
    · exact g3
    · rw [← g3]; exact (butterflyPoint_sym hv hr hcl he).symm
  have l : ∀ {x y z}, HasTri inp.tris x y z → inp.coord x = inp.place x := fun ht =>
    coord_place hv (hv.isEdge_lt (hv.isEdge_of_dart ht.dart)).1
  have k := butterflyPoint_inner (K := ℝ) hv hr hc hd h2 h4 h1 h3
  rw [hsym, l hc, l hd, l hc.rot.rot, l hd.rot.rot, l h1.rot.rot, l h2.rot.rot, l h3.rot.rot, l h4.rot.rot, zero_add] at k
  rw [place_of_pos g4, Except.ok.inj k]
  unfold BfAt
  module

/-- distances of a new point from the corners of a triangle at its edge, and from the new point of the next edge -/
theorem butterfly_dists (hn : EdgeScheme.butterfly.toScheme.Needs inp) (hcl : inp.Closed) (hsel : inp.EdgeSelOK f.edgeSel)
    (h : edgeUpdate .butterfly lib cosn f inp = (.ok out, f')) {M : ℝ}
    (hM : ∀ e, inp.IsEdge e → dist (inp.place e.1) (inp.place e.2) ≤ M) {a b c m : PId} (hc : HasTri inp.tris a b c)
    (hm : inp.listPoint f.edgeSel (a, b) = some m) :
    dist (out.place m) (inp.place a) ≤ 3 / 4 * M ∧ dist (out.place m) (inp.place b) ≤ 3 / 4 * M ∧
      dist (out.place m) (inp.place c) ≤
        7 / 16 * ‖(inp.place a - inp.place c) + (inp.place b - inp.place c)‖ + 1 / 4 * M ∧
      ∀ m', inp.listPoint f.edgeSel (b, c) = some m' → dist (out.place m) (out.place m') ≤ 3 / 4 * M := by
  have hv := hn.valid
  have over : ∀ {a b c}, HasTri inp.tris a b c → ∃ d, HasTri inp.tris b a d := fun ht =>
    (hcl.two hv (hv.isEdge_of_dart ht.dart)).2
  have l : ∀ {x y z}, HasTri inp.tris x y z → dist (inp.place x) (inp.place y) ≤ M := fun ht =>
    hM _ (hv.isEdge_of_dart ht.dart)
  have l' : ∀ {x y z}, HasTri inp.tris x y z → dist (inp.place y) (inp.place x) ≤ M := fun ht => by
    rw [dist_comm]; exact l ht
  have h0 : 0 ≤ M := dist_nonneg.trans (l hc)
  obtain ⟨d, hd⟩ := over hc
  obtain ⟨u₂, h2⟩ := over hc.rot
  obtain ⟨u₁, h1⟩ := over hc.rot.rot
  obtain ⟨u₃, h3⟩ := over hd.rot
  obtain ⟨u₄, h4⟩ := over hd.rot.rot
  have B := butterfly_bfAt hn hcl hsel h hc hd h1 h2 h3 h4 hm
  refine ⟨B.half h0 (l hc) (l h1.rot) (l' h2.rot.rot) (l' h3.rot.rot) (l h4.rot), ?_, ?_, fun m' hm' => ?_⟩
  · have B' := butterfly_bfAt hn hcl hsel h hd hc h4 h3 h2 h1 (m := m) (by
      rw [← hm]; exact (edgeUpdate_result hn hsel h).label.sym (a, b))
    exact B'.half h0 (l hd) (l h4.rot) (l' h3.rot.rot) (l' h2.rot.rot) (l h1.rot)
  · exact B.across h0 (l' h1.rot.rot) (l h2.rot) (l' h3.rot.rot) (l h4.rot)
  · obtain ⟨g₁, k1⟩ := over h2.rot
    obtain ⟨g₂, k2⟩ := over h2.rot.rot
    have B' := butterfly_bfAt hn hcl hsel h hc.rot h2 hd h1 k1 k2 hm'
    exact B.between B' h0 (l' hc.rot.rot) (l hd.rot.rot) (l h2.rot) (l' h3.rot.rot) (l h4.rot) (l k1.rot.rot) (l' k2.rot)

/-- One iteration of the conditional filter on a closed mesh, when `M` bounds the edges and `S` the doubled medians over long
sides of triangles with a short side.  The edges of the output are bounded, and when `3 / 4 * M` is at most `L`, the triangles with
a long edge have a short and a very short one. -/
theorem butterfly_length_iteration (hn : EdgeScheme.butterfly.toScheme.Needs inp) (hcl : inp.Closed) {l : List Edge} (hne : l ≠ [])
    {L M S : ℝ} (hs : ∀ e, e ∈ l ↔ e ∈ inp.edges ∧ inp.TooLong dist L e)
    (hM : ∀ e, inp.IsEdge e → dist (inp.place e.1) (inp.place e.2) ≤ M)
    (hS : ∀ x y z, HasTri inp.tris x y z → L < dist (inp.place x) (inp.place y) →
      (dist (inp.place x) (inp.place z) ≤ L ∨ dist (inp.place y) (inp.place z) ≤ L) →
      ‖(inp.place x - inp.place z) + (inp.place y - inp.place z)‖ ≤ S)
    (h : edgeUpdate .butterfly lib cosn (f.setEdges (l.map some)) inp = (.ok out, f')) (hvo : out.Valid) :
    (∀ e, out.IsEdge e → dist (out.place e.1) (out.place e.2) ≤ max (max L (3 / 4 * M)) (7 / 16 * S + 1 / 4 * M)) ∧
    (3 / 4 * M ≤ L → ∀ x y z, HasTri out.tris x y z → L < dist (out.place x) (out.place y) →
      (dist (out.place x) (out.place z) ≤ 3 / 4 * M ∧ dist (out.place y) (out.place z) ≤ L) ∨
      (dist (out.place x) (out.place z) ≤ L ∧ dist (out.place y) (out.place z) ≤ 3 / 4 * M)) := by
  have hv := hn.valid
  have hsel : inp.EdgeSelOK (f.setEdges (l.map some)).edgeSel := by
    intro e he
    obtain ⟨e', he', h⟩ := List.mem_map.1 he
    cases h
    exact Or.inl ((hs _).1 he').1
  have R := edgeUpdate_result hn hsel h
  have hk := C06_original_points_kept_edge hv.points_dense h
  have pk : ∀ {x y z}, HasTri inp.tris x y z → out.place x = inp.place x := fun ht =>
    place_kept hk hv (hv.isEdge_lt (hv.isEdge_of_dart ht.dart)).1
  have rots : ∀ {t : Tri} {x y z : PId}, t ∈ inp.tris →
      (x, y, z) ∈ [(t.1, t.2.1, t.2.2), (t.2.1, t.2.2, t.1), (t.2.2, t.1, t.2.1)] → HasTri inp.tris x y z := by
    intro t x y z ht hs'
    have h0 : HasTri inp.tris t.1 t.2.1 t.2.2 := Or.inl ht
    simp only [List.mem_cons, List.not_mem_nil, or_false, Prod.mk.injEq] at hs'
    rcases hs' with ⟨rfl, rfl, rfl⟩ | ⟨rfl, rfl, rfl⟩ | ⟨rfl, rfl, rfl⟩
    · exact h0
    · exact h0.rot
    · exact h0.rot.rot
  -- the four kinds of edges
  have old : ∀ {x y z}, HasTri inp.tris x y z → inp.listPoint (l.map some) (x, y) = none →
      dist (inp.place x) (inp.place y) ≤ L := by
    intro x y z ht hμ
    have s0 := length_split hv hne hs (hv.isEdge_of_dart ht.dart)
    rw [hμ] at s0
    simpa using s0
  have new : ∀ {a b c m : PId}, HasTri inp.tris a b c → inp.listPoint (l.map some) (a, b) = some m →
      dist (out.place m) (inp.place a) ≤ 3 / 4 * M ∧ dist (out.place m) (inp.place b) ≤ 3 / 4 * M ∧
      dist (out.place m) (inp.place c) ≤
        7 / 16 * ‖(inp.place a - inp.place c) + (inp.place b - inp.place c)‖ + 1 / 4 * M ∧
      ∀ m', inp.listPoint (l.map some) (b, c) = some m' → dist (out.place m) (out.place m') ≤ 3 / 4 * M :=
    fun ht hm => butterfly_dists hn hcl hsel h hM ht hm
  constructor
  · have key : ∀ e ∈ dartsOf out.tris, dist (out.place e.1) (out.place e.2) ≤
        max (max L (3 / 4 * M)) (7 / 16 * S + 1 / 4 * M) := by
      intro e he
      rw [R.tris] at he
      obtain ⟨d, hd, hed⟩ := mem_dartsOf.1 he
      obtain ⟨t, ht, hd⟩ := List.mem_flatMap.1 hd
      obtain ⟨⟨x, y, z⟩, hs', hc⟩ := childEdge_kinds hd hed
      have hT := rots ht hs'
      have px := pk hT
      have py := pk hT.rot
      have pz := pk hT.rot.rot
      simp only at hc
      rcases hc with ⟨rfl, hμ⟩ | ⟨m, hμ, hc⟩ | ⟨m, m', hμ, hμ', hc⟩ | ⟨m, hμ, hμ', hc⟩
      · refine le_max_of_le_left (le_max_of_le_left ?_)
        change dist (out.place x) (out.place y) ≤ L
        rw [px, py]
        exact old hT hμ
      · refine le_max_of_le_left (le_max_of_le_right ?_)
        obtain ⟨k1, k2, -⟩ := new hT hμ
        rcases hc with rfl | rfl | rfl | rfl
        · change dist (out.place x) (out.place m) ≤ _
          rw [px, dist_comm]; exact k1
        · change dist (out.place m) (out.place x) ≤ _
          rw [px]; exact k1
        · change dist (out.place y) (out.place m) ≤ _
          rw [py, dist_comm]; exact k2
        · change dist (out.place m) (out.place y) ≤ _
          rw [py]; exact k2
      · refine le_max_of_le_left (le_max_of_le_right ?_)
        have k := (new hT hμ).2.2.2 m' hμ'
        rcases hc with rfl | rfl
        · exact k
        · rw [dist_comm]; exact k
      · refine le_max_of_le_right ?_
        have hl : L < dist (inp.place x) (inp.place y) := (length_split hv hne hs (hv.isEdge_of_dart hT.dart)).1 (by
          rw [show inp.listPoint (l.map some) (x, y) = some m from hμ]; rfl)
        have k := (new hT hμ).2.2.1
        have k' := hS x y z hT hl (by
          rcases hμ' with hμ' | hμ'
          · exact Or.inr (old hT.rot hμ')
          · exact Or.inl (by rw [dist_comm]; exact old hT.rot.rot hμ'))
        have k'' : dist (out.place m) (out.place z) ≤ 7 / 16 * S + 1 / 4 * M := by rw [pz]; linarith
        rcases hc with rfl | rfl
        · exact k''
        · rw [dist_comm]; exact k''
    intro e he
    rcases (hvo.edges_iff e).1 he with h | h
    · exact key e h
    · rw [dist_comm]; exact key _ h
  · intro hh x y z ht hl
    have hx : ∃ d ∈ out.tris, Tri.Is d x y z := by
      rcases ht with ht | ht | ht
      · exact ⟨_, ht, Or.inl rfl⟩
      · exact ⟨_, ht, Or.inr (Or.inl rfl)⟩
      · exact ⟨_, ht, Or.inr (Or.inr rfl)⟩
    obtain ⟨d, hd, hx⟩ := hx
    rw [R.tris] at hd
    obtain ⟨t, ht, hd⟩ := List.mem_flatMap.1 hd
    refine children_calm (ℓ := fun x y => dist (out.place x) (out.place y)) hh (fun _ _ => dist_comm _ _) hd ?_ hx hl
    rintro ⟨x, y, z⟩ hs'
    have hT := rots ht hs'
    have px := pk hT
    have py := pk hT.rot
    have pz := pk hT.rot.rot
    refine ⟨fun hμ => ?_, fun m hμ => ⟨?_, ?_⟩, fun m m' hμ hμ' => (new hT hμ).2.2.2 m' hμ'⟩
    · simp only [px, py]; exact old hT hμ
    · simp only [px]; rw [dist_comm]; exact (new hT hμ).1
    · simp only [py]; exact (new hT hμ).2.1

end mesh
end Verif
