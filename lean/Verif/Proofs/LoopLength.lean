import Verif.Properties.Geometry
import Verif.Properties.Edge
import Verif.Proofs.Coords
/-
Lengths of edges when the Loop edge filter splits the long edges of a mesh.
-/
namespace Verif
set_option linter.unusedSectionVars false

/-- an edge of a child is an edge that is not split, half of one that is, or inside the triangle: between two new points, or
between a new point and the opposite corner in a triangle with an edge that is not split -/
theorem childEdge_kinds {μ : Edge → Option PId} {t d : Tri} (hd : d ∈ t.children μ) {e : Edge} (he : e ∈ d.darts) :
    ∃ s ∈ [(t.1, t.2.1, t.2.2), (t.2.1, t.2.2, t.1), (t.2.2, t.1, t.2.1)],
      (e = (s.1, s.2.1) ∧ μ (s.1, s.2.1) = none) ∨
      (∃ m, μ (s.1, s.2.1) = some m ∧ (e = (s.1, m) ∨ e = (m, s.1) ∨ e = (s.2.1, m) ∨ e = (m, s.2.1))) ∨
      (∃ m m', μ (s.1, s.2.1) = some m ∧ μ (s.2.1, s.2.2) = some m' ∧ (e = (m, m') ∨ e = (m', m))) ∨
      (∃ m, μ (s.1, s.2.1) = some m ∧ (μ (s.2.1, s.2.2) = none ∨ μ (s.2.2, s.1) = none) ∧ (e = (m, s.2.2) ∨ e = (s.2.2, m))) := by
  obtain ⟨a, b, c⟩ := t
  simp only [Tri.children] at hd
  simp only [List.mem_cons, List.not_mem_nil, or_false, exists_eq_or_imp, exists_eq_left]
  rcases e0 : μ (a, b) with _ | m0 <;> rcases e1 : μ (b, c) with _ | m1 <;> rcases e2 : μ (c, a) with _ | m2 <;>
    simp only [e0, e1, e2] at hd <;>
    simp only [List.mem_cons, List.not_mem_nil, or_false] at hd <;>
    rcases hd with rfl | rfl | rfl | rfl <;>
    simp only [Tri.darts, List.mem_cons, List.not_mem_nil, or_false] at he <;>
    rcases he with rfl | rfl | rfl <;> simp

section vectors
variable {E : Type} [NormedAddCommGroup E] [InnerProductSpace ℝ E] {L M : ℝ} {x y z p q : E}

/-- the place `p` of the new point of the edge from `x` to `y` in a triangle with third corner `z` -/
def NewAt (M : ℝ) (x y z p : E) : Prop :=
  p = (1 / 2 : ℝ) • x + (1 / 2 : ℝ) • y ∨
    ∃ w, dist w x ≤ M ∧ dist w y ≤ M ∧ p = (3 / 8 : ℝ) • x + (3 / 8 : ℝ) • y + (1 / 8 : ℝ) • z + (1 / 8 : ℝ) • w

theorem NewAt.symm (h : NewAt M x y z p) : NewAt M y x z p := by
  rcases h with h | ⟨w, h1, h2, h3⟩
  · exact Or.inl (by rw [h]; module)
  · exact Or.inr ⟨w, h2, h1, by rw [h3]; module⟩

theorem NewAt.half (h : NewAt M x y z p) (hxy : dist x y ≤ M) (hz : dist z x ≤ M) : dist p x ≤ 9 / 10 * M := by
  have hM : 0 ≤ M := dist_nonneg.trans hxy
  rcases h with h | ⟨w, h1, h2, h3⟩
  · have : p - x = (1 / 2 : ℝ) • (y - x) := by rw [h]; module
    rw [dist_eq_norm, this, norm_smul]
    rw [dist_comm, dist_eq_norm] at hxy
    norm_num
    linarith
  · have : p - x = (3 / 8 : ℝ) • (y - x) + (1 / 8 : ℝ) • (z - x) + (1 / 8 : ℝ) • (w - x) := by rw [h3]; module
    rw [dist_eq_norm, this]
    rw [dist_comm, dist_eq_norm] at hxy
    rw [dist_eq_norm] at hz h1
    refine (norm_add₃_le).trans ?_
    rw [norm_smul, norm_smul, norm_smul]
    norm_num
    linarith

theorem NewAt.between (h : NewAt M x y z p) (h' : NewAt M y z x q) (hxy : dist x y ≤ M)
    (hzx : dist z x ≤ M) : dist p q ≤ 9 / 10 * M := by
  have hM : 0 ≤ M := dist_nonneg.trans hxy
  rw [dist_comm, dist_eq_norm] at hzx
  rcases h with h | ⟨w, h1, h2, h3⟩ <;> rcases h' with h' | ⟨w', h1', h2', h3'⟩
  · have : p - q = (1 / 2 : ℝ) • (x - z) := by rw [h, h']; module
    rw [dist_eq_norm, this, norm_smul]
    norm_num
    linarith
  · have : p - q = (3 / 8 : ℝ) • (x - z) + (1 / 8 : ℝ) • (y - w') := by rw [h, h3']; module
    rw [dist_comm, dist_eq_norm] at h1'
    rw [dist_eq_norm, this]
    refine (norm_add_le _ _).trans ?_
    rw [norm_smul, norm_smul]
    norm_num
    linarith
  · have : p - q = (3 / 8 : ℝ) • (x - z) + (1 / 8 : ℝ) • (w - y) := by rw [h3, h']; module
    rw [dist_eq_norm] at h2
    rw [dist_eq_norm, this]
    refine (norm_add_le _ _).trans ?_
    rw [norm_smul, norm_smul]
    norm_num
    linarith
  · have : p - q = (1 / 4 : ℝ) • (x - z) + (1 / 8 : ℝ) • (w - y) + (1 / 8 : ℝ) • (y - w') := by rw [h3, h3']; module
    rw [dist_eq_norm] at h2
    rw [dist_comm, dist_eq_norm] at h1'
    rw [dist_eq_norm, this]
    refine (norm_add₃_le).trans ?_
    rw [norm_smul, norm_smul, norm_smul]
    norm_num
    linarith

/-- the median of a triangle with one short side over a long one -/
theorem median_short (hL : 0 ≤ L) (hLM : L ≤ M) (hxy : L < dist x y) (hxz : dist x z ≤ M) (hyz : dist y z ≤ M)
    (hs : dist x z ≤ L ∨ dist y z ≤ L) : ‖(x - z) + (y - z)‖ ^ 2 ≤ 3 * M ^ 2 := by
  have h1 := parallelogram_law_with_norm ℝ (x - z) (y - z)
  rw [sub_sub_sub_cancel_right] at h1
  rw [dist_eq_norm] at hxy hxz hyz
  rw [dist_eq_norm, dist_eq_norm] at hs
  have hM := hL.trans hLM
  have k1 : L ^ 2 ≤ ‖x - y‖ ^ 2 := pow_le_pow_left₀ hL hxy.le 2
  have k2 : ‖x - z‖ ^ 2 ≤ M ^ 2 := pow_le_pow_left₀ (norm_nonneg _) hxz 2
  have k3 : ‖y - z‖ ^ 2 ≤ M ^ 2 := pow_le_pow_left₀ (norm_nonneg _) hyz 2
  have k4 : L ^ 2 ≤ M ^ 2 := pow_le_pow_left₀ hL hLM 2
  rcases hs with hs | hs
  · have k5 : ‖x - z‖ ^ 2 ≤ L ^ 2 := pow_le_pow_left₀ (norm_nonneg _) hs 2
    nlinarith
  · have k5 : ‖y - z‖ ^ 2 ≤ L ^ 2 := pow_le_pow_left₀ (norm_nonneg _) hs 2
    nlinarith

theorem NewAt.across (h : NewAt M x y z p) (hL : 0 ≤ L) (hLM : L ≤ M) (hxy : L < dist x y) (hxz : dist x z ≤ M)
    (hyz : dist y z ≤ M) (hs : dist x z ≤ L ∨ dist y z ≤ L) : dist p z ≤ 9 / 10 * M := by
  have hM := hL.trans hLM
  have h0 := median_short hL hLM hxy hxz hyz hs
  have hm : ‖(x - z) + (y - z)‖ ≤ 26 / 15 * M := by
    refine (sq_le_sq₀ (norm_nonneg _) (by positivity)).1 (h0.trans ?_)
    nlinarith [sq_nonneg M]
  rw [dist_eq_norm] at hxz
  rcases h with h | ⟨w, h1, h2, h3⟩
  · have : p - z = (1 / 2 : ℝ) • ((x - z) + (y - z)) := by rw [h]; module
    rw [dist_eq_norm, this, norm_smul]
    norm_num
    linarith
  · have : p - z = (3 / 8 : ℝ) • ((x - z) + (y - z)) + (1 / 8 : ℝ) • (w - x) + (1 / 8 : ℝ) • (x - z) := by rw [h3]; module
    rw [dist_eq_norm] at h1
    rw [dist_eq_norm, this]
    refine (norm_add₃_le).trans ?_
    rw [norm_smul, norm_smul, norm_smul]
    norm_num
    linarith

end vectors

section mesh
variable {E D : Type} [NormedAddCommGroup E] [InnerProductSpace ℝ E] {lib : QELib} {cosn : Nat → ℝ} {f f' : Filt}
  {inp out : Mesh E D}

theorem coord_place (hv : inp.Valid) {v : PId} (h : v < inp.points.length) : inp.coord v = inp.place v := by
  have := hv.pos_eq h
  unfold Mesh.place
  rw [this]; rfl

/-- where the Loop edge filter puts the new point of an edge -/
theorem loop_newAt (hn : EdgeScheme.loop.toScheme.Needs inp) (hsel : inp.EdgeSelOK f.edgeSel)
    (h : edgeUpdate .loop lib cosn f inp = (.ok out, f')) {M : ℝ}
    (hM : ∀ e, inp.IsEdge e → dist (inp.place e.1) (inp.place e.2) ≤ M) {a b c m : PId} (ht : HasTri inp.tris a b c)
    (hm : inp.listPoint f.edgeSel (a, b) = some m) :
    NewAt M (inp.place a) (inp.place b) (inp.place c) (out.place m) := by
  have hv := hn.valid
  have hr := hn.ring (Or.inl rfl)
  obtain ⟨e', p, g1, g2, g3, g4⟩ := edgeUpdate_edgeValue hn hsel h hm
  have he := hv.isEdge_of_dart ht.dart
  have hsym : loopPoint ℝ inp (a, b) = .ok p := by
    rcases g1 with rfl | rfl
    · exact g3
    · rw [← g3]; exact (loopPoint_sym hv hr he).symm
  have la := coord_place hv (hv.isEdge_lt he).1
  have lb := coord_place hv (hv.isEdge_lt he).2
  have lc := coord_place hv (hv.isEdge_lt (hv.isEdge_of_dart ht.rot.dart)).2
  rw [place_of_pos g4]
  by_cases hb : (b, a) ∈ dartsOf inp.tris
  · obtain ⟨d, hd⟩ := dartsOf_iff_hasTri.1 hb
    have h1 := loopPoint_inner (K := ℝ) hv hr ht hd
    have ld := coord_place hv (hv.isEdge_lt (hv.isEdge_of_dart hd.rot.dart)).2
    rw [hsym, la, lb, lc, ld, zero_add] at h1
    refine Or.inr ⟨inp.place d, ?_, ?_, Except.ok.inj h1⟩
    · exact hM (d, a) (hv.isEdge_of_dart hd.rot.dart).sym
    · exact hM (d, b) (hv.isEdge_of_dart hd.rot.rot.dart)
  · have h1 := loopPoint_border (K := ℝ) hv he (fun hc => hb hc.2)
    rw [hsym] at h1
    refine Or.inl ?_
    rw [Except.ok.inj h1, la, lb]
    unfold midPoint
    module

/-- one iteration of the conditional filter -/
theorem loop_length_iteration (hn : EdgeScheme.loop.toScheme.Needs inp) {l : List Edge} (hne : l ≠ [])
    {L M : ℝ} (hL : 0 ≤ L) (hLM : L ≤ M) (hs : ∀ e, e ∈ l ↔ e ∈ inp.edges ∧ inp.TooLong dist L e)
    (hM : ∀ e, inp.IsEdge e → dist (inp.place e.1) (inp.place e.2) ≤ M)
    (h : edgeUpdate .loop lib cosn (f.setEdges (l.map some)) inp = (.ok out, f')) (hvo : out.Valid) :
    ∀ e, out.IsEdge e → dist (out.place e.1) (out.place e.2) ≤ max L (9 / 10 * M) := by
  have hv := hn.valid
  have hsel : inp.EdgeSelOK (f.setEdges (l.map some)).edgeSel := by
    intro e he
    obtain ⟨e', he', h⟩ := List.mem_map.1 he
    cases h
    exact Or.inl ((hs _).1 he').1
  have R := edgeUpdate_result hn hsel h
  have hk := C06_original_points_kept_edge hv.points_dense h
  have key : ∀ e ∈ dartsOf out.tris, dist (out.place e.1) (out.place e.2) ≤ max L (9 / 10 * M) := by
    intro e he
    rw [R.tris] at he
    obtain ⟨d, hd, hed⟩ := mem_dartsOf.1 he
    obtain ⟨t, ht, hd⟩ := List.mem_flatMap.1 hd
    obtain ⟨⟨x, y, z⟩, hs', hc⟩ := childEdge_kinds hd hed
    have hT : HasTri inp.tris x y z := by
      have h0 : HasTri inp.tris t.1 t.2.1 t.2.2 := Or.inl ht
      simp only [List.mem_cons, List.not_mem_nil, or_false, Prod.mk.injEq] at hs'
      rcases hs' with ⟨rfl, rfl, rfl⟩ | ⟨rfl, rfl, rfl⟩ | ⟨rfl, rfl, rfl⟩
      · exact h0
      · exact h0.rot
      · exact h0.rot.rot
    have e0 := hv.isEdge_of_dart hT.dart
    have e1 := hv.isEdge_of_dart hT.rot.dart
    have e2 := hv.isEdge_of_dart hT.rot.rot.dart
    have px := place_kept hk hv (hv.isEdge_lt e0).1
    have py := place_kept hk hv (hv.isEdge_lt e0).2
    have pz := place_kept hk hv (hv.isEdge_lt e1).2
    have m0 := hM _ e0
    have m1 := hM _ e1
    have m2 := hM _ e2
    have s0 := length_split hv hne hs e0
    have s1 := length_split hv hne hs e1
    have s2 := length_split hv hne hs e2
    simp only at hc px py pz m0 m1 m2 s0 s1 s2
    have new : ∀ {a b c m : PId}, HasTri inp.tris a b c → inp.listPoint (l.map some) (a, b) = some m →
        NewAt M (inp.place a) (inp.place b) (inp.place c) (out.place m) := fun ht hm => loop_newAt hn hsel h hM ht hm
    rcases hc with ⟨rfl, hμ⟩ | ⟨m, hμ, hc⟩ | ⟨m, m', hμ, hμ', hc⟩ | ⟨m, hμ, hμ', hc⟩
    · refine le_max_of_le_left ?_
      change dist (out.place x) (out.place y) ≤ L
      rw [px, py]
      change inp.listPoint (l.map some) (x, y) = none at hμ
      rw [hμ] at s0
      simpa using s0
    · refine le_max_of_le_right ?_
      have k := new hT hμ
      have k1 := k.half m0 m2
      have k2 := k.symm.half (by rw [dist_comm]; exact m0) (by rw [dist_comm]; exact m1)
      rcases hc with rfl | rfl | rfl | rfl
      · change dist (out.place x) (out.place m) ≤ _
        rw [px, dist_comm]; exact k1
      · change dist (out.place m) (out.place x) ≤ _
        rw [px]; exact k1
      · change dist (out.place y) (out.place m) ≤ _
        rw [py, dist_comm]; exact k2
      · change dist (out.place m) (out.place y) ≤ _
        rw [py]; exact k2
    · refine le_max_of_le_right ?_
      have k := (new hT hμ).between (new hT.rot hμ') m0 m2
      rcases hc with rfl | rfl
      · exact k
      · rw [dist_comm]; exact k
    · refine le_max_of_le_right ?_
      have hl : L < dist (inp.place x) (inp.place y) := s0.1 (by
        rw [show inp.listPoint (l.map some) (x, y) = some m from hμ]; rfl)
      have k := (new hT hμ).across hL hLM hl (by rw [dist_comm]; exact m2) m1 (by
        rcases hμ' with hμ' | hμ'
        · change inp.listPoint (l.map some) (y, z) = none at hμ'
          rw [hμ'] at s1
          exact Or.inr (by simpa using s1)
        · change inp.listPoint (l.map some) (z, x) = none at hμ'
          rw [hμ'] at s2
          exact Or.inl (by rw [dist_comm]; simpa using s2))
      rw [← pz] at k
      rcases hc with rfl | rfl
      · exact k
      · rw [dist_comm]; exact k
  intro e he
  rcases (hvo.edges_iff e).1 he with h | h
  · exact key e h
  · rw [dist_comm]; exact key _ h

end mesh
end Verif
