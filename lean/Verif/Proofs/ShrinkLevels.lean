import Verif.Proofs.Shrink
import Verif.Proofs.Levels
import Verif.Proofs.Support
import Verif.Proofs.Rim
import Verif.Properties.Sqrt3
/-
C67: SquareThree, and the levels one after the other.
-/
namespace Verif
set_option linter.unusedSectionVars false
variable {V D : Type} [NormedAddCommGroup V] [NormedSpace ℝ V] {lib : QELib} {f' : Filt} {inp out : Mesh V D} {sch : Scheme}
  {δ : ℝ}

theorem Mesh.Valid.pos_lt {P : Type} {m : Mesh P D} (h : m.Valid) {v : PId} {p : P} (hp : m.pos v = some p) :
    v < m.points.length := by
  have h1 : m.points.find? v = some p := hp
  have : v ∈ m.points.map Prod.fst := (AMap.find?_isSome _ _).1 (by rw [h1]; rfl)
  rw [h.points_dense] at this
  exact List.mem_range.1 this

/-- the new point of the triangle at a directed edge -/
theorem sqrt3_centre {cosn : Nat → ℝ} (hv : inp.Valid) (hmax : inp.points.length + (inp.selected []).length ≤ idMax)
    (h : cellUpdate .sqrt3 lib cosn (Filt.new.setCells []) inp = (.ok out, f')) {a b : PId} {v : PId}
    (hc : inp.centreOf ([] : List CId) (a, b) = some v) :
    ∃ c, HasTri inp.tris a b c ∧ out.pos v = some
      ((1 / 3 : ℝ) • inp.coord a + (1 / 3 : ℝ) • inp.coord b + (1 / 3 : ℝ) • inp.coord c) := by
  obtain ⟨i, ⟨x, y, z⟩, h1, h2, rfl⟩ := centreIn_some (n := inp.points.length) (L := inp.selected ([] : List CId)) hc
  have ht := hv.selected_subset _ _ (List.mem_of_getElem? h1)
  have hT : HasTri inp.tris x y z := Or.inl ht
  have pe : ∀ {a b c}, HasTri inp.tris a b c → inp.pos a = some (inp.coord a) := fun ht =>
    hv.pos_eq (hv.isEdge_lt (hv.isEdge_of_dart ht.dart)).1
  have hp := (C12_sqrt3_centroids (f := Filt.new.setCells []) hv (selOK_nil _) hmax h h1).1 _ _ _ (pe hT) (pe hT.rot) (pe hT.rot.rot)
  simp only [Tri.darts, List.mem_cons, Prod.mk.injEq, List.not_mem_nil, or_false] at h2
  rcases h2 with ⟨rfl, rfl⟩ | ⟨rfl, rfl⟩ | ⟨rfl, rfl⟩
  · exact ⟨z, hT, hp⟩
  · exact ⟨x, hT.rot, hp.trans (congrArg some (by abel))⟩
  · exact ⟨y, hT.rot.rot, hp.trans (congrArg some (by abel))⟩

/-- the triangles of the output: the new points on both sides of an edge and the end of it -/
theorem sqrt3_tris {cosn : Nat → ℝ} (hv : inp.Valid) (hc : inp.Closed) (hmax : inp.points.length + (inp.selected []).length ≤ idMax)
    (h : cellUpdate .sqrt3 lib cosn (Filt.new.setCells []) inp = (.ok out, f')) {s : Tri} (hs : s ∈ out.tris) :
    ∃ a b v v', inp.centreOf ([] : List CId) (a, b) = some v ∧ inp.centreOf ([] : List CId) (b, a) = some v' ∧ s = (v, v', b) := by
  have R := sqrt3Update_result (f := Filt.new.setCells []) hv (selOK_nil _) hmax h
  have some_centre : ∀ {e}, e ∈ dartsOf inp.tris → ∃ v, inp.centreOf ([] : List CId) e = some v := by
    intro e he
    obtain ⟨t, ht, het⟩ := mem_dartsOf.1 he
    exact Option.isSome_iff_exists.1 ((centreOf_isSome hv ht het).2 (by simpa [Mesh.selected] using ht))
  have hsym : ∀ e ∈ dartsOf inp.tris, e.sym ∈ dartsOf inp.tris := fun e he => by
    by_contra hcc
    exact hc e ⟨he, hcc⟩
  have piece : ∀ {e v}, inp.centreOf ([] : List CId) e = some v → s = sq3Piece (inp.centreOf ([] : List CId)) v e →
      ∃ a b v v', inp.centreOf ([] : List CId) (a, b) = some v ∧ inp.centreOf ([] : List CId) (b, a) = some v' ∧ s = (v, v', b) := by
    intro e v he hse
    obtain ⟨i, t, h1, h2, -⟩ := centreIn_some (n := inp.points.length) (L := inp.selected ([] : List CId)) he
    obtain ⟨v', hv'⟩ := some_centre (hsym _ (mem_dartsOf.2 ⟨t, hv.selected_subset _ _ (List.mem_of_getElem? h1), h2⟩))
    unfold sq3Piece at hse
    rw [hv'] at hse
    exact ⟨e.1, e.2, v, v', he, hv', hse⟩
  rcases (mem_sq3 R.centres).1 ((R.mem_tris hv).1 hs) with ⟨ht, h0⟩ | ⟨e, v, he, hse⟩
  · obtain ⟨v, hv'⟩ := some_centre (mem_dartsOf.2 ⟨s, ht, (by simp [Tri.darts] : (s.1, s.2.1) ∈ s.darts)⟩)
    exact absurd (h0.symm.trans hv') (by simp)
  · exact piece he hse

theorem sqrt3_shrink {cosn : Nat → ℝ} (hv : inp.Valid) (hc : inp.Closed) (hmax : inp.points.length + (inp.selected []).length ≤ idMax)
    (h : cellUpdate .sqrt3 lib cosn (Filt.new.setCells []) inp = (.ok out, f')) (hδ : inp.EdgesWithin δ) :
    out.EdgesWithin (2 / 3 * δ) := by
  have hvo := (C13_sqrt3_valid (f := Filt.new.setCells []) hv (selOK_nil _) hmax h).1
  have key : ∀ e ∈ dartsOf out.tris, ∀ p q, out.pos e.1 = some p → out.pos e.2 = some q → ‖p - q‖ ≤ 2 / 3 * δ := by
    intro e he p q hp hq
    obtain ⟨s, hs, hes⟩ := mem_dartsOf.1 he
    obtain ⟨a, b, v, v', h1, h2, rfl⟩ := sqrt3_tris hv hc hmax h hs
    obtain ⟨c, hT, pv⟩ := sqrt3_centre hv hmax h h1
    obtain ⟨d, hT', pv'⟩ := sqrt3_centre hv hmax h h2
    have eb := hv.isEdge_of_dart hT'.dart
    have pb := C06_original_points_kept (by decide) hv.points_dense h b _ (hv.pos_eq (hv.isEdge_lt eb).1)
    have h0 := hδ.nonneg hv eb
    obtain ⟨g1, g2, g3⟩ := hδ.tri hv hT
    obtain ⟨k1, k2, k3⟩ := hδ.tri hv hT'
    simp only [Tri.darts, List.mem_cons, List.not_mem_nil, or_false] at hes
    rcases hes with rfl | rfl | rfl
    · rw [pv] at hp; rw [pv'] at hq
      cases hp; cases hq
      refine norm_of_weighted [(1 / 3, inp.coord c - inp.coord a), (1 / 3, inp.coord a - inp.coord d)] ?_
        (by simp only [List.map_cons, List.map_nil, List.sum_cons, List.sum_nil]; module)
        (by norm_num [abs_of_pos]) h0
      simp only [List.mem_cons, List.not_mem_nil, or_false]
      rintro x (rfl | rfl)
      · exact g3
      · exact k2
    · rw [pv'] at hp; rw [pb] at hq
      cases hp; cases hq
      refine norm_of_weighted [(-1 / 3, inp.coord b - inp.coord a), (1 / 3, inp.coord d - inp.coord b)] ?_
        (by simp only [List.map_cons, List.map_nil, List.sum_cons, List.sum_nil]; module)
        (by norm_num [abs_of_pos, abs_of_neg]) h0
      simp only [List.mem_cons, List.not_mem_nil, or_false]
      rintro x (rfl | rfl)
      · exact k1
      · exact k3
    · rw [pb] at hp; rw [pv] at hq
      cases hp; cases hq
      refine norm_of_weighted [(-1 / 3, inp.coord a - inp.coord b), (1 / 3, inp.coord b - inp.coord c)] ?_
        (by simp only [List.map_cons, List.map_nil, List.sum_cons, List.sum_nil]; module)
        (by norm_num [abs_of_pos, abs_of_neg]) h0
      simp only [List.mem_cons, List.not_mem_nil, or_false]
      rintro x (rfl | rfl)
      · exact g1
      · exact g2
  intro e p q he hp hq
  rcases (hvo.edges_iff e).1 he with he | he
  · exact key e he p q hp hq
  · rw [norm_sub_rev]
    exact key _ he q p hq hp

theorem Scheme.shrink_bounds (sch : Scheme) : 0 < sch.shrink ∧ sch.shrink < 1 ∧ 0 ≤ sch.drift := by
  cases sch <;> simp only [Scheme.shrink, Scheme.drift] <;> norm_num

theorem level_shrinks (hs : sch.Shrinks inp) (hmax : sch = .sqrt3 → inp.points.length + (inp.selected []).length ≤ idMax)
    (h : cellUpdate sch lib realCos (Filt.new.setCells []) inp = (.ok out, f')) (hno : sch.Needs out) : sch.Shrinks out := by
  refine ⟨hno, fun hq => ?_, fun hq => ?_⟩
  · subst hq
    exact simple_split (by decide) hs.needs (selOK_nil _) h (hs.simple rfl)
  · rcases hq with rfl | rfl
    · exact (C18_boundary_preserved (by decide) hs.needs (selOK_nil _) h).2.1 (hs.closed (.inl rfl))
    · exact (C18_boundary_preserved_sqrt3 (f := Filt.new.setCells []) hs.needs.valid (selOK_nil _) (hmax rfl) h).2.1
        (hs.closed (.inr rfl))

theorem level_shrink (hs : sch.Shrinks inp) (hmax : sch = .sqrt3 → inp.points.length + (inp.selected []).length ≤ idMax)
    (h : cellUpdate sch lib realCos (Filt.new.setCells []) inp = (.ok out, f')) (hδ : inp.EdgesWithin δ) :
    out.EdgesWithin (sch.shrink * δ) := by
  cases sch with
  | linear => exact linear_shrink hs.needs.valid h hδ
  | loop => exact loop_shrink hs.needs (hs.simple rfl) h hδ
  | butterfly => exact butterfly_shrink hs.needs (hs.closed (.inl rfl)) h hδ
  | sqrt3 => exact sqrt3_shrink hs.needs.valid (hs.closed (.inr rfl)) (hmax rfl) h hδ

theorem level_drift (hs : sch.Shrinks inp) (hδ0 : 0 ≤ δ)
    (h : cellUpdate sch lib realCos (Filt.new.setCells []) inp = (.ok out, f')) (hδ : inp.EdgesWithin δ) {v : PId} {p q : V}
    (hp : inp.pos v = some p) (hq : out.pos v = some q) : ‖q - p‖ ≤ sch.drift * δ := by
  have hv := hs.needs.valid
  by_cases hl : sch = .loop
  · subst hl
    have hlt : v < inp.points.length := hv.pos_lt hp
    have := loop_drift hs.needs (hs.simple rfl) h hδ hlt hq
    rw [hv.pos_eq hlt] at hp
    cases hp
    exact this
  · rw [C06_original_points_kept hl hv.points_dense h v _ hp] at hq
    cases hq
    rw [sub_self, norm_zero]
    exact mul_nonneg sch.shrink_bounds.2.2 hδ0

/-- a point of the output is close to a point of the input -/
theorem level_near (hs : sch.Shrinks inp) (hδ0 : 0 ≤ δ) (hmax : sch = .sqrt3 → inp.points.length + (inp.selected []).length ≤ idMax)
    (h : cellUpdate sch lib realCos (Filt.new.setCells []) inp = (.ok out, f')) (hδ : inp.EdgesWithin δ) {v : PId} {q : V}
    (hq : out.pos v = some q) : ∃ u p, inp.pos u = some p ∧ ‖q - p‖ ≤ (sch.drift + sch.shrink) * δ := by
  have hv := hs.needs.valid
  obtain ⟨b1, b2, b3⟩ := sch.shrink_bounds
  by_cases hlt : v < inp.points.length
  · refine ⟨v, _, hv.pos_eq hlt, (level_drift hs hδ0 h hδ (hv.pos_eq hlt) hq).trans ?_⟩
    exact mul_le_mul_of_nonneg_right (by linarith) hδ0
  have hge := Nat.le_of_not_lt hlt
  -- joined to an old point
  obtain ⟨a, hal, hvo, hae⟩ : ∃ a, a < inp.points.length ∧ out.Valid ∧ out.IsEdge (v, a) := by
    by_cases hq3 : sch = .sqrt3
    · subst hq3
      have R := sqrt3Update_result (f := Filt.new.setCells []) hv (selOK_nil _) (hmax rfl) h
      have hvo := (C13_sqrt3_valid (f := Filt.new.setCells []) hv (selOK_nil _) (hmax rfl) h).1
      have hlen := hvo.pos_lt hq
      rw [R.points, AMap.length_dense, List.length_append, List.length_map, List.length_map, List.length_range] at hlen
      obtain ⟨i, rfl⟩ := Nat.exists_eq_add_of_le hge
      obtain ⟨t, hi⟩ : ∃ t, (inp.selected ([] : List CId))[i]? = some t :=
        ⟨_, List.getElem?_eq_getElem (Nat.lt_of_add_lt_add_left hlen)⟩
      have ht := hv.selected_subset _ _ (List.mem_of_getElem? hi)
      have hce := fun e he => centreOf_getElem hv (List.nodup_nil) (e := e) hi he
      have hed : (t.1, t.2.1) ∈ t.darts := by simp [Tri.darts]
      have hc1 := hce _ hed
      have hm := (R.mem_tris hv).2 ((mem_sq3 R.centres).2 (Or.inr ⟨_, _, hc1, rfl⟩))
      refine ⟨t.2.1, hv.verts_lt ht (Tri.dart_mem_verts hed).2, hvo,
        Mesh.IsEdge.sym (e := (t.2.1, inp.points.length + i)) (hvo.isEdge_of_dart (mem_dartsOf.2 ⟨_, hm, ?_⟩))⟩
      unfold sq3Piece
      split <;> simp [Tri.darts]
    · obtain ⟨R, hnew⟩ := cellUpdate_result (f := Filt.new.setCells []) hq3 hs.needs (selOK_nil _) h
      have hvo := (C04_output_valid hq3 hs.needs (selOK_nil _) h).1
      have hlen := hvo.pos_lt hq
      rw [R.points, AMap.length_dense] at hlen
      obtain ⟨e, he, hem⟩ := hnew v hge hlen
      obtain ⟨t, ht, het⟩ := mem_dartsOf.1 he
      refine ⟨e.1, hv.verts_lt ht (Tri.dart_mem_verts het).1, hvo, Mesh.IsEdge.sym (e := (e.1, v)) (hvo.isEdge_of_dart ?_)⟩
      rw [R.tris]
      have := (children_halves _ t het hem).1
      obtain ⟨d, hd, hd'⟩ := mem_dartsOf.1 this
      exact mem_dartsOf.2 ⟨d, List.mem_flatMap.2 ⟨t, ht, hd⟩, hd'⟩
  have hpa := hvo.pos_eq (hvo.isEdge_lt hae).2
  have h1 := level_shrink hs hmax h hδ (v, a) _ _ hae hq hpa
  have h2 := level_drift hs hδ0 h hδ (hv.pos_eq hal) hpa
  refine ⟨a, _, hv.pos_eq hal, ?_⟩
  calc ‖q - inp.coord a‖ = ‖(q - out.coord a) + (out.coord a - inp.coord a)‖ := by congr 1; abel
    _ ≤ ‖q - out.coord a‖ + ‖out.coord a - inp.coord a‖ := norm_add_le _ _
    _ ≤ (sch.drift + sch.shrink) * δ := by linarith

/-- the output of a level is the input of the next -/
theorem level_ok (hl : sch = .loop ∨ sch = .butterfly → lib.Lawful) {L : Nat} (hs : sch.Shrinks inp)
    (hid : sch.IdsLeft (L + 1) inp []) :
    ∃ m f', cellUpdate sch lib realCos (Filt.new.setCells []) inp = (.ok m, f') ∧
      oneLevel sch lib realCos (inp, []) = .ok (m, []) ∧ sch.Shrinks m ∧ sch.IdsLeft L m [] ∧
      (sch = .sqrt3 → inp.points.length + (inp.selected []).length ≤ idMax) ∧ inp.points.length ≤ m.points.length := by
  obtain ⟨m1, s1, h1, hn1, -, hid1, hu1, -⟩ := oneLevel_ok realCos hl hs.needs (sel := []) (fun k hk => by cases hk) hid
  obtain rfl := (hu1 rfl).1
  have hmax := IdsLeft.now hid
  have h1' := h1
  unfold oneLevel at h1'
  rcases hc : cellUpdate sch lib realCos (Filt.new.setCells []) inp with ⟨r, f'⟩
  simp only [hc] at h1'
  cases r with
  | error e => cases h1'
  | ok o =>
    obtain ⟨rfl, -⟩ := Prod.mk.inj (Except.ok.inj h1')
    exact ⟨_, f', rfl, h1, level_shrinks hs hmax hc hn1, hid1, hmax,
      cellUpdate_more_points (f := Filt.new.setCells []) hs.needs (selOK_nil _) hmax hc⟩

/-- `k` levels: edges are shorter, old points have moved little, new points are close to old ones -/
theorem levels_from (hl : sch = .loop ∨ sch = .butterfly → lib.Lawful) (hδ0 : 0 ≤ δ) (k : Nat) (hs : sch.Shrinks inp)
    (hid : sch.IdsLeft k inp []) (hδ : inp.EdgesWithin δ) :
    ∃ m, manyLevels sch lib realCos k (inp, []) = .ok (m, []) ∧ sch.Shrinks m ∧ m.EdgesWithin (sch.shrink ^ k * δ) ∧
      (∀ v p, inp.pos v = some p → ∃ q, m.pos v = some q ∧
        ‖q - p‖ ≤ sch.drift * ((1 - sch.shrink ^ k) / (1 - sch.shrink)) * δ) ∧
      ∀ v q, m.pos v = some q → ∃ u p, inp.pos u = some p ∧
        ‖q - p‖ ≤ (sch.drift + sch.shrink) * ((1 - sch.shrink ^ k) / (1 - sch.shrink)) * δ := by
  obtain ⟨b1, b2, b3⟩ := sch.shrink_bounds
  have geo : ∀ n : Nat, (1 - sch.shrink ^ (n + 1)) / (1 - sch.shrink) =
      1 + (1 - sch.shrink ^ n) / (1 - sch.shrink) * sch.shrink := by
    intro n
    have : 1 - sch.shrink ≠ 0 := by linarith
    field_simp
    ring
  induction k generalizing inp δ with
  | zero =>
    refine ⟨inp, rfl, hs, by simpa using hδ, fun v p hp => ⟨p, hp, by simp⟩, fun v q hq => ⟨v, q, hq, by simp⟩⟩
  | succ n ih =>
    obtain ⟨m1, f1, hc, h1, hs1, hid1, hmax, hlen⟩ := level_ok hl hs hid
    obtain ⟨m, h2, hs2, e2, d2, n2⟩ := ih (mul_nonneg b1.le hδ0) hs1 hid1 (level_shrink hs hmax hc hδ)
    refine ⟨m, ?_, hs2, ?_, ?_, ?_⟩
    · unfold manyLevels
      rw [h1]
      exact h2
    · rwa [pow_succ, mul_assoc]
    · intro v p hp
      have hp1 := hs1.needs.valid.pos_eq (lt_of_lt_of_le (hs.needs.valid.pos_lt hp) hlen)
      obtain ⟨q, hq, hqn⟩ := d2 v _ hp1
      have hd := level_drift hs hδ0 hc hδ hp hp1
      refine ⟨q, hq, ?_⟩
      rw [geo]
      calc ‖q - p‖ = ‖(q - m1.coord v) + (m1.coord v - p)‖ := by congr 1; abel
        _ ≤ ‖q - m1.coord v‖ + ‖m1.coord v - p‖ := norm_add_le _ _
        _ ≤ _ := by linarith
    · intro v q hq
      obtain ⟨w, r, hr, hrn⟩ := n2 v q hq
      obtain ⟨u, p, hp, hpn⟩ := level_near hs hδ0 hmax hc hδ hr
      refine ⟨u, p, hp, ?_⟩
      rw [geo]
      calc ‖q - p‖ = ‖(q - r) + (r - p)‖ := by congr 1; abel
        _ ≤ ‖q - r‖ + ‖r - p‖ := norm_add_le _ _
        _ ≤ _ := by linarith

/-- level `L` and level `L + k` -/
theorem levels_between (hl : sch = .loop ∨ sch = .butterfly → lib.Lawful) (hδ0 : 0 ≤ δ) (L k : Nat) (hs : sch.Shrinks inp)
    (hid : sch.IdsLeft (L + k) inp []) (hδ : inp.EdgesWithin δ) :
    ∃ m m', manyLevels sch lib realCos L (inp, []) = .ok (m, []) ∧ manyLevels sch lib realCos (L + k) (inp, []) = .ok (m', []) ∧
      m.EdgesWithin (sch.shrink ^ L * δ) ∧
      (∀ v p, m.pos v = some p → ∃ q, m'.pos v = some q ∧
        ‖q - p‖ ≤ sch.drift * ((1 - sch.shrink ^ k) / (1 - sch.shrink)) * (sch.shrink ^ L * δ)) ∧
      ∀ v q, m'.pos v = some q → ∃ u p, m.pos u = some p ∧
        ‖q - p‖ ≤ (sch.drift + sch.shrink) * ((1 - sch.shrink ^ k) / (1 - sch.shrink)) * (sch.shrink ^ L * δ) := by
  obtain ⟨b1, b2, b3⟩ := sch.shrink_bounds
  induction L generalizing inp δ with
  | zero =>
    rw [Nat.zero_add] at hid ⊢
    obtain ⟨m', h1, -, -, h2, h3⟩ := levels_from hl hδ0 k hs hid hδ
    simp only [pow_zero, one_mul]
    exact ⟨inp, m', rfl, h1, hδ, h2, h3⟩
  | succ n ih =>
    rw [Nat.add_right_comm] at hid ⊢
    obtain ⟨m1, f1, hc, h1, hs1, hid1, hmax, hlen⟩ := level_ok hl hs hid
    obtain ⟨m, m', g1, g2, g3, g4, g5⟩ := ih (mul_nonneg b1.le hδ0) hs1 hid1 (level_shrink hs hmax hc hδ)
    have he : sch.shrink ^ n * (sch.shrink * δ) = sch.shrink ^ (n + 1) * δ := by rw [pow_succ, mul_assoc]
    rw [he] at g3 g4 g5
    refine ⟨m, m', ?_, ?_, g3, g4, g5⟩
    · unfold manyLevels; rw [h1]; exact g1
    · unfold manyLevels; rw [h1]; exact g2

end Verif
